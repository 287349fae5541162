import Verif.Lemmas.Bounds.BraninE

/-! Written by tools/mkbounds.py. -/

namespace Mfpml.IA

theorem branin1_above_53 : OnBox (AboveOr braninE cons1E braninPars (.ofNat (nat_lit 5575600000000000))) [⟨(.ofNat (nat_lit 500000000000000)), (.ofNat (nat_lit 1000000000000000))⟩, ⟨(.ofNat (nat_lit 500000000000000)), (.ofNat (nat_lit 1000000000000000))⟩] :=
  aboveOr_of_check (n := 60) (by decide +kernel)

end Mfpml.IA
