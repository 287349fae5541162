import Verif.Lemmas.Bounds.BraninE

/-! Written by tools/mkbounds.py. -/

namespace Mfpml.IA

theorem branin1_above_2 : OnBox (AboveOr braninE cons1E braninPars (.ofNat (nat_lit 5575600000000000))) [⟨(.ofNat (nat_lit 0)), (.ofNat (nat_lit 500000000000000))⟩, ⟨(.ofNat (nat_lit 0)), (.ofNat (nat_lit 1000000000000000))⟩] :=
  aboveOr_of_check (n := 60) (by decide +kernel)

theorem branin1_above_5 : OnBox (AboveOr braninE cons1E braninPars (.ofNat (nat_lit 5575600000000000))) [⟨(.ofNat (nat_lit 500000000000000)), (.ofNat (nat_lit 750000000000000))⟩, ⟨(.ofNat (nat_lit 0)), (.ofNat (nat_lit 500000000000000))⟩] :=
  aboveOr_of_check (n := 60) (by decide +kernel)

theorem branin1_above_8 : OnBox (AboveOr braninE cons1E braninPars (.ofNat (nat_lit 5575600000000000))) [⟨(.ofNat (nat_lit 750000000000000)), (.ofNat (nat_lit 875000000000000))⟩, ⟨(.ofNat (nat_lit 0)), (.ofNat (nat_lit 250000000000000))⟩] :=
  aboveOr_of_check (n := 60) (by decide +kernel)

theorem branin1_above_10 : OnBox (AboveOr braninE cons1E braninPars (.ofNat (nat_lit 5575600000000000))) [⟨(.ofNat (nat_lit 875000000000000)), (.ofNat (nat_lit 1000000000000000))⟩, ⟨(.ofNat (nat_lit 0)), (.ofNat (nat_lit 125000000000000))⟩] :=
  aboveOr_of_check (n := 60) (by decide +kernel)

theorem branin1_above_12 : OnBox (AboveOr braninE cons1E braninPars (.ofNat (nat_lit 5575600000000000))) [⟨(.ofNat (nat_lit 875000000000000)), (.ofNat (nat_lit 937500000000000))⟩, ⟨(.ofNat (nat_lit 125000000000000)), (.ofNat (nat_lit 250000000000000))⟩] :=
  aboveOr_of_check (n := 60) (by decide +kernel)

theorem branin1_above_14 : OnBox (AboveOr braninE cons1E braninPars (.ofNat (nat_lit 5575600000000000))) [⟨(.ofNat (nat_lit 937500000000000)), (.ofNat (nat_lit 1000000000000000))⟩, ⟨(.ofNat (nat_lit 125000000000000)), (.ofNat (nat_lit 187500000000000))⟩] :=
  aboveOr_of_check (n := 60) (by decide +kernel)

theorem branin1_above_18 : OnBox (AboveOr braninE cons1E braninPars (.ofNat (nat_lit 5575600000000000))) [⟨(.ofNat (nat_lit 937500000000000)), (.ofNat (nat_lit 953125000000000))⟩, ⟨(.ofNat (nat_lit 187500000000000)), (.ofNat (nat_lit 218750000000000))⟩] :=
  aboveOr_of_check (n := 60) (by decide +kernel)

theorem branin1_above_20 : OnBox (AboveOr braninE cons1E braninPars (.ofNat (nat_lit 5575600000000000))) [⟨(.ofNat (nat_lit 953125000000000)), (.ofNat (nat_lit 968750000000000))⟩, ⟨(.ofNat (nat_lit 187500000000000)), (.ofNat (nat_lit 203125000000000))⟩] :=
  aboveOr_of_check (n := 60) (by decide +kernel)

theorem branin1_above_22 : OnBox (AboveOr braninE cons1E braninPars (.ofNat (nat_lit 5575600000000000))) [⟨(.ofNat (nat_lit 953125000000000)), (.ofNat (nat_lit 960937500000000))⟩, ⟨(.ofNat (nat_lit 203125000000000)), (.ofNat (nat_lit 218750000000000))⟩] :=
  aboveOr_of_check (n := 60) (by decide +kernel)

theorem branin1_above_26 : OnBox (AboveOr braninE cons1E braninPars (.ofNat (nat_lit 5575600000000000))) [⟨(.ofNat (nat_lit 960937500000000)), (.ofNat (nat_lit 964843750000000))⟩, ⟨(.ofNat (nat_lit 203125000000000)), (.ofNat (nat_lit 207031250000000))⟩] :=
  aboveOr_of_check (n := 60) (by decide +kernel)

theorem branin1_above_28 : OnBox (AboveOr braninE cons1E braninPars (.ofNat (nat_lit 5575600000000000))) [⟨(.ofNat (nat_lit 964843750000000)), (.ofNat (nat_lit 968750000000000))⟩, ⟨(.ofNat (nat_lit 203125000000000)), (.ofNat (nat_lit 205078125000000))⟩] :=
  aboveOr_of_check (n := 60) (by decide +kernel)

theorem branin1_above_30 : OnBox (AboveOr braninE cons1E braninPars (.ofNat (nat_lit 5575600000000000))) [⟨(.ofNat (nat_lit 964843750000000)), (.ofNat (nat_lit 968750000000000))⟩, ⟨(.ofNat (nat_lit 205078125000000)), (.ofNat (nat_lit 206054687500000))⟩] :=
  aboveOr_of_check (n := 60) (by decide +kernel)

theorem branin1_above_32 : OnBox (AboveOr braninE cons1E braninPars (.ofNat (nat_lit 5575600000000000))) [⟨(.ofNat (nat_lit 964843750000000)), (.ofNat (nat_lit 966796875000000))⟩, ⟨(.ofNat (nat_lit 206054687500000)), (.ofNat (nat_lit 207031250000000))⟩] :=
  aboveOr_of_check (n := 60) (by decide +kernel)

theorem branin1_above_34 : OnBox (AboveOr braninE cons1E braninPars (.ofNat (nat_lit 5575600000000000))) [⟨(.ofNat (nat_lit 966796875000000)), (.ofNat (nat_lit 968750000000000))⟩, ⟨(.ofNat (nat_lit 206054687500000)), (.ofNat (nat_lit 206542968750000))⟩] :=
  aboveOr_of_check (n := 60) (by decide +kernel)

theorem branin1_above_38 : OnBox (AboveOr braninE cons1E braninPars (.ofNat (nat_lit 5575600000000000))) [⟨(.ofNat (nat_lit 966796875000000)), (.ofNat (nat_lit 967285156250000))⟩, ⟨(.ofNat (nat_lit 206542968750000)), (.ofNat (nat_lit 206787109375000))⟩] :=
  aboveOr_of_check (n := 60) (by decide +kernel)

theorem branin1_above_40 : OnBox (AboveOr braninE cons1E braninPars (.ofNat (nat_lit 5575600000000000))) [⟨(.ofNat (nat_lit 967285156250000)), (.ofNat (nat_lit 967773437500000))⟩, ⟨(.ofNat (nat_lit 206542968750000)), (.ofNat (nat_lit 206665039062500))⟩] :=
  aboveOr_of_check (n := 60) (by decide +kernel)

end Mfpml.IA
