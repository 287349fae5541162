import Verif.Lemmas.Bounds.BraninE

/-! Written by tools/mkbounds.py. -/

namespace Mfpml.IA

theorem branin1_above_42 : OnBox (AboveOr braninE cons1E braninPars (.ofNat (nat_lit 5575600000000000))) [⟨(.ofNat (nat_lit 967285156250000)), (.ofNat (nat_lit 967529296875000))⟩, ⟨(.ofNat (nat_lit 206665039062500)), (.ofNat (nat_lit 206787109375000))⟩] :=
  aboveOr_of_check (n := 60) (by decide +kernel)

theorem branin1_above_44 : OnBox (AboveOr braninE cons1E braninPars (.ofNat (nat_lit 5575600000000000))) [⟨(.ofNat (nat_lit 967529296875000)), (.ofNat (nat_lit 967773437500000))⟩, ⟨(.ofNat (nat_lit 206665039062500)), (.ofNat (nat_lit 206726074218750))⟩] :=
  aboveOr_of_check (n := 60) (by decide +kernel)

theorem branin1_above_45 : OnBox (AboveOr braninE cons1E braninPars (.ofNat (nat_lit 5575600000000000))) [⟨(.ofNat (nat_lit 967529296875000)), (.ofNat (nat_lit 967773437500000))⟩, ⟨(.ofNat (nat_lit 206726074218750)), (.ofNat (nat_lit 206787109375000))⟩] :=
  aboveOr_of_check (n := 60) (by decide +kernel)

theorem branin1_above_46 : OnBox (AboveOr braninE cons1E braninPars (.ofNat (nat_lit 5575600000000000))) [⟨(.ofNat (nat_lit 966796875000000)), (.ofNat (nat_lit 967773437500000))⟩, ⟨(.ofNat (nat_lit 206787109375000)), (.ofNat (nat_lit 207031250000000))⟩] :=
  aboveOr_of_check (n := 60) (by decide +kernel)

end Mfpml.IA
