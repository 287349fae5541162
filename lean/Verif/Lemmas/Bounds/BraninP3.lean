import Verif.Lemmas.Bounds.BraninE

/-! Written by tools/mkbounds.py. -/

namespace Mfpml.IA

theorem branin1_above_47 : OnBox (AboveOr braninE cons1E braninPars (.ofNat (nat_lit 5575600000000000))) [⟨(.ofNat (nat_lit 967773437500000)), (.ofNat (nat_lit 968750000000000))⟩, ⟨(.ofNat (nat_lit 206542968750000)), (.ofNat (nat_lit 207031250000000))⟩] :=
  aboveOr_of_check (n := 60) (by decide +kernel)

theorem branin1_above_48 : OnBox (AboveOr braninE cons1E braninPars (.ofNat (nat_lit 5575600000000000))) [⟨(.ofNat (nat_lit 960937500000000)), (.ofNat (nat_lit 968750000000000))⟩, ⟨(.ofNat (nat_lit 207031250000000)), (.ofNat (nat_lit 210937500000000))⟩] :=
  aboveOr_of_check (n := 60) (by decide +kernel)

theorem branin1_above_49 : OnBox (AboveOr braninE cons1E braninPars (.ofNat (nat_lit 5575600000000000))) [⟨(.ofNat (nat_lit 960937500000000)), (.ofNat (nat_lit 968750000000000))⟩, ⟨(.ofNat (nat_lit 210937500000000)), (.ofNat (nat_lit 218750000000000))⟩] :=
  aboveOr_of_check (n := 60) (by decide +kernel)

theorem branin1_above_50 : OnBox (AboveOr braninE cons1E braninPars (.ofNat (nat_lit 5575600000000000))) [⟨(.ofNat (nat_lit 937500000000000)), (.ofNat (nat_lit 968750000000000))⟩, ⟨(.ofNat (nat_lit 218750000000000)), (.ofNat (nat_lit 250000000000000))⟩] :=
  aboveOr_of_check (n := 60) (by decide +kernel)

theorem branin1_above_51 : OnBox (AboveOr braninE cons1E braninPars (.ofNat (nat_lit 5575600000000000))) [⟨(.ofNat (nat_lit 968750000000000)), (.ofNat (nat_lit 1000000000000000))⟩, ⟨(.ofNat (nat_lit 187500000000000)), (.ofNat (nat_lit 250000000000000))⟩] :=
  aboveOr_of_check (n := 60) (by decide +kernel)

theorem branin1_above_52 : OnBox (AboveOr braninE cons1E braninPars (.ofNat (nat_lit 5575600000000000))) [⟨(.ofNat (nat_lit 750000000000000)), (.ofNat (nat_lit 1000000000000000))⟩, ⟨(.ofNat (nat_lit 250000000000000)), (.ofNat (nat_lit 500000000000000))⟩] :=
  aboveOr_of_check (n := 60) (by decide +kernel)

end Mfpml.IA
