import Verif.Lemmas.Bounds.ForresterE

/-! Written by tools/mkbounds.py. -/

namespace Mfpml.IA

theorem forrester_above_1 : OnBox (Above forresterE (.negSucc (nat_lit 6020740999999999))) [⟨(.ofNat (nat_lit 0)), (.ofNat (nat_lit 1000000000000000))⟩] :=
  above_of_check (n := 60) (by decide +kernel)

end Mfpml.IA
