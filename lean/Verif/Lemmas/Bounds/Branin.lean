import Verif.Lemmas.Bounds.BraninP1
import Verif.Lemmas.Bounds.BraninP2
import Verif.Lemmas.Bounds.BraninP3
import Verif.Lemmas.Bounds.BraninP4
import Verif.Lemmas.Bounds.BraninP5
import Verif.Lemmas.Bounds.BraninP6

/-! Written by tools/mkbounds.py. -/

namespace Mfpml.IA

theorem branin1_above_43 : OnBox (AboveOr braninE cons1E braninPars (.ofNat (nat_lit 5575600000000000))) [⟨(.ofNat (nat_lit 967529296875000)), (.ofNat (nat_lit 967773437500000))⟩, ⟨(.ofNat (nat_lit 206665039062500)), (.ofNat (nat_lit 206787109375000))⟩] := OnBox.glue (nat_lit 1) (.ofNat (nat_lit 206726074218750)) branin1_above_44 branin1_above_45

theorem branin1_above_41 : OnBox (AboveOr braninE cons1E braninPars (.ofNat (nat_lit 5575600000000000))) [⟨(.ofNat (nat_lit 967285156250000)), (.ofNat (nat_lit 967773437500000))⟩, ⟨(.ofNat (nat_lit 206665039062500)), (.ofNat (nat_lit 206787109375000))⟩] := OnBox.glue (nat_lit 0) (.ofNat (nat_lit 967529296875000)) branin1_above_42 branin1_above_43

theorem branin1_above_39 : OnBox (AboveOr braninE cons1E braninPars (.ofNat (nat_lit 5575600000000000))) [⟨(.ofNat (nat_lit 967285156250000)), (.ofNat (nat_lit 967773437500000))⟩, ⟨(.ofNat (nat_lit 206542968750000)), (.ofNat (nat_lit 206787109375000))⟩] := OnBox.glue (nat_lit 1) (.ofNat (nat_lit 206665039062500)) branin1_above_40 branin1_above_41

theorem branin1_above_37 : OnBox (AboveOr braninE cons1E braninPars (.ofNat (nat_lit 5575600000000000))) [⟨(.ofNat (nat_lit 966796875000000)), (.ofNat (nat_lit 967773437500000))⟩, ⟨(.ofNat (nat_lit 206542968750000)), (.ofNat (nat_lit 206787109375000))⟩] := OnBox.glue (nat_lit 0) (.ofNat (nat_lit 967285156250000)) branin1_above_38 branin1_above_39

theorem branin1_above_36 : OnBox (AboveOr braninE cons1E braninPars (.ofNat (nat_lit 5575600000000000))) [⟨(.ofNat (nat_lit 966796875000000)), (.ofNat (nat_lit 967773437500000))⟩, ⟨(.ofNat (nat_lit 206542968750000)), (.ofNat (nat_lit 207031250000000))⟩] := OnBox.glue (nat_lit 1) (.ofNat (nat_lit 206787109375000)) branin1_above_37 branin1_above_46

theorem branin1_above_35 : OnBox (AboveOr braninE cons1E braninPars (.ofNat (nat_lit 5575600000000000))) [⟨(.ofNat (nat_lit 966796875000000)), (.ofNat (nat_lit 968750000000000))⟩, ⟨(.ofNat (nat_lit 206542968750000)), (.ofNat (nat_lit 207031250000000))⟩] := OnBox.glue (nat_lit 0) (.ofNat (nat_lit 967773437500000)) branin1_above_36 branin1_above_47

theorem branin1_above_33 : OnBox (AboveOr braninE cons1E braninPars (.ofNat (nat_lit 5575600000000000))) [⟨(.ofNat (nat_lit 966796875000000)), (.ofNat (nat_lit 968750000000000))⟩, ⟨(.ofNat (nat_lit 206054687500000)), (.ofNat (nat_lit 207031250000000))⟩] := OnBox.glue (nat_lit 1) (.ofNat (nat_lit 206542968750000)) branin1_above_34 branin1_above_35

theorem branin1_above_31 : OnBox (AboveOr braninE cons1E braninPars (.ofNat (nat_lit 5575600000000000))) [⟨(.ofNat (nat_lit 964843750000000)), (.ofNat (nat_lit 968750000000000))⟩, ⟨(.ofNat (nat_lit 206054687500000)), (.ofNat (nat_lit 207031250000000))⟩] := OnBox.glue (nat_lit 0) (.ofNat (nat_lit 966796875000000)) branin1_above_32 branin1_above_33

theorem branin1_above_29 : OnBox (AboveOr braninE cons1E braninPars (.ofNat (nat_lit 5575600000000000))) [⟨(.ofNat (nat_lit 964843750000000)), (.ofNat (nat_lit 968750000000000))⟩, ⟨(.ofNat (nat_lit 205078125000000)), (.ofNat (nat_lit 207031250000000))⟩] := OnBox.glue (nat_lit 1) (.ofNat (nat_lit 206054687500000)) branin1_above_30 branin1_above_31

theorem branin1_above_27 : OnBox (AboveOr braninE cons1E braninPars (.ofNat (nat_lit 5575600000000000))) [⟨(.ofNat (nat_lit 964843750000000)), (.ofNat (nat_lit 968750000000000))⟩, ⟨(.ofNat (nat_lit 203125000000000)), (.ofNat (nat_lit 207031250000000))⟩] := OnBox.glue (nat_lit 1) (.ofNat (nat_lit 205078125000000)) branin1_above_28 branin1_above_29

theorem branin1_above_25 : OnBox (AboveOr braninE cons1E braninPars (.ofNat (nat_lit 5575600000000000))) [⟨(.ofNat (nat_lit 960937500000000)), (.ofNat (nat_lit 968750000000000))⟩, ⟨(.ofNat (nat_lit 203125000000000)), (.ofNat (nat_lit 207031250000000))⟩] := OnBox.glue (nat_lit 0) (.ofNat (nat_lit 964843750000000)) branin1_above_26 branin1_above_27

theorem branin1_above_24 : OnBox (AboveOr braninE cons1E braninPars (.ofNat (nat_lit 5575600000000000))) [⟨(.ofNat (nat_lit 960937500000000)), (.ofNat (nat_lit 968750000000000))⟩, ⟨(.ofNat (nat_lit 203125000000000)), (.ofNat (nat_lit 210937500000000))⟩] := OnBox.glue (nat_lit 1) (.ofNat (nat_lit 207031250000000)) branin1_above_25 branin1_above_48

theorem branin1_above_23 : OnBox (AboveOr braninE cons1E braninPars (.ofNat (nat_lit 5575600000000000))) [⟨(.ofNat (nat_lit 960937500000000)), (.ofNat (nat_lit 968750000000000))⟩, ⟨(.ofNat (nat_lit 203125000000000)), (.ofNat (nat_lit 218750000000000))⟩] := OnBox.glue (nat_lit 1) (.ofNat (nat_lit 210937500000000)) branin1_above_24 branin1_above_49

theorem branin1_above_21 : OnBox (AboveOr braninE cons1E braninPars (.ofNat (nat_lit 5575600000000000))) [⟨(.ofNat (nat_lit 953125000000000)), (.ofNat (nat_lit 968750000000000))⟩, ⟨(.ofNat (nat_lit 203125000000000)), (.ofNat (nat_lit 218750000000000))⟩] := OnBox.glue (nat_lit 0) (.ofNat (nat_lit 960937500000000)) branin1_above_22 branin1_above_23

theorem branin1_above_19 : OnBox (AboveOr braninE cons1E braninPars (.ofNat (nat_lit 5575600000000000))) [⟨(.ofNat (nat_lit 953125000000000)), (.ofNat (nat_lit 968750000000000))⟩, ⟨(.ofNat (nat_lit 187500000000000)), (.ofNat (nat_lit 218750000000000))⟩] := OnBox.glue (nat_lit 1) (.ofNat (nat_lit 203125000000000)) branin1_above_20 branin1_above_21

theorem branin1_above_17 : OnBox (AboveOr braninE cons1E braninPars (.ofNat (nat_lit 5575600000000000))) [⟨(.ofNat (nat_lit 937500000000000)), (.ofNat (nat_lit 968750000000000))⟩, ⟨(.ofNat (nat_lit 187500000000000)), (.ofNat (nat_lit 218750000000000))⟩] := OnBox.glue (nat_lit 0) (.ofNat (nat_lit 953125000000000)) branin1_above_18 branin1_above_19

theorem branin1_above_16 : OnBox (AboveOr braninE cons1E braninPars (.ofNat (nat_lit 5575600000000000))) [⟨(.ofNat (nat_lit 937500000000000)), (.ofNat (nat_lit 968750000000000))⟩, ⟨(.ofNat (nat_lit 187500000000000)), (.ofNat (nat_lit 250000000000000))⟩] := OnBox.glue (nat_lit 1) (.ofNat (nat_lit 218750000000000)) branin1_above_17 branin1_above_50

theorem branin1_above_15 : OnBox (AboveOr braninE cons1E braninPars (.ofNat (nat_lit 5575600000000000))) [⟨(.ofNat (nat_lit 937500000000000)), (.ofNat (nat_lit 1000000000000000))⟩, ⟨(.ofNat (nat_lit 187500000000000)), (.ofNat (nat_lit 250000000000000))⟩] := OnBox.glue (nat_lit 0) (.ofNat (nat_lit 968750000000000)) branin1_above_16 branin1_above_51

theorem branin1_above_13 : OnBox (AboveOr braninE cons1E braninPars (.ofNat (nat_lit 5575600000000000))) [⟨(.ofNat (nat_lit 937500000000000)), (.ofNat (nat_lit 1000000000000000))⟩, ⟨(.ofNat (nat_lit 125000000000000)), (.ofNat (nat_lit 250000000000000))⟩] := OnBox.glue (nat_lit 1) (.ofNat (nat_lit 187500000000000)) branin1_above_14 branin1_above_15

theorem branin1_above_11 : OnBox (AboveOr braninE cons1E braninPars (.ofNat (nat_lit 5575600000000000))) [⟨(.ofNat (nat_lit 875000000000000)), (.ofNat (nat_lit 1000000000000000))⟩, ⟨(.ofNat (nat_lit 125000000000000)), (.ofNat (nat_lit 250000000000000))⟩] := OnBox.glue (nat_lit 0) (.ofNat (nat_lit 937500000000000)) branin1_above_12 branin1_above_13

theorem branin1_above_9 : OnBox (AboveOr braninE cons1E braninPars (.ofNat (nat_lit 5575600000000000))) [⟨(.ofNat (nat_lit 875000000000000)), (.ofNat (nat_lit 1000000000000000))⟩, ⟨(.ofNat (nat_lit 0)), (.ofNat (nat_lit 250000000000000))⟩] := OnBox.glue (nat_lit 1) (.ofNat (nat_lit 125000000000000)) branin1_above_10 branin1_above_11

theorem branin1_above_7 : OnBox (AboveOr braninE cons1E braninPars (.ofNat (nat_lit 5575600000000000))) [⟨(.ofNat (nat_lit 750000000000000)), (.ofNat (nat_lit 1000000000000000))⟩, ⟨(.ofNat (nat_lit 0)), (.ofNat (nat_lit 250000000000000))⟩] := OnBox.glue (nat_lit 0) (.ofNat (nat_lit 875000000000000)) branin1_above_8 branin1_above_9

theorem branin1_above_6 : OnBox (AboveOr braninE cons1E braninPars (.ofNat (nat_lit 5575600000000000))) [⟨(.ofNat (nat_lit 750000000000000)), (.ofNat (nat_lit 1000000000000000))⟩, ⟨(.ofNat (nat_lit 0)), (.ofNat (nat_lit 500000000000000))⟩] := OnBox.glue (nat_lit 1) (.ofNat (nat_lit 250000000000000)) branin1_above_7 branin1_above_52

theorem branin1_above_4 : OnBox (AboveOr braninE cons1E braninPars (.ofNat (nat_lit 5575600000000000))) [⟨(.ofNat (nat_lit 500000000000000)), (.ofNat (nat_lit 1000000000000000))⟩, ⟨(.ofNat (nat_lit 0)), (.ofNat (nat_lit 500000000000000))⟩] := OnBox.glue (nat_lit 0) (.ofNat (nat_lit 750000000000000)) branin1_above_5 branin1_above_6

theorem branin1_above_3 : OnBox (AboveOr braninE cons1E braninPars (.ofNat (nat_lit 5575600000000000))) [⟨(.ofNat (nat_lit 500000000000000)), (.ofNat (nat_lit 1000000000000000))⟩, ⟨(.ofNat (nat_lit 0)), (.ofNat (nat_lit 1000000000000000))⟩] := OnBox.glue (nat_lit 1) (.ofNat (nat_lit 500000000000000)) branin1_above_4 branin1_above_53

theorem branin1_above_1 : OnBox (AboveOr braninE cons1E braninPars (.ofNat (nat_lit 5575600000000000))) [⟨(.ofNat (nat_lit 0)), (.ofNat (nat_lit 1000000000000000))⟩, ⟨(.ofNat (nat_lit 0)), (.ofNat (nat_lit 1000000000000000))⟩] := OnBox.glue (nat_lit 0) (.ofNat (nat_lit 500000000000000)) branin1_above_2 branin1_above_3

theorem branin1_above : OnBox (AboveOr braninE cons1E braninPars (.ofNat (nat_lit 5575600000000000))) [⟨(.ofNat (nat_lit 0)), (.ofNat (nat_lit 1000000000000000))⟩, ⟨(.ofNat (nat_lit 0)), (.ofNat (nat_lit 1000000000000000))⟩] := branin1_above_1

theorem branin2_above_20 : OnBox (AboveOr lagrange2E cons2E braninPars (.ofNat (nat_lit 12001000000000000))) [⟨(.ofNat (nat_lit 937500000000000)), (.ofNat (nat_lit 945312500000000))⟩, ⟨(.ofNat (nat_lit 312500000000000)), (.ofNat (nat_lit 328125000000000))⟩] := OnBox.glue (nat_lit 1) (.ofNat (nat_lit 320312500000000)) branin2_above_21 branin2_above_22

theorem branin2_above_19 : OnBox (AboveOr lagrange2E cons2E braninPars (.ofNat (nat_lit 12001000000000000))) [⟨(.ofNat (nat_lit 937500000000000)), (.ofNat (nat_lit 953125000000000))⟩, ⟨(.ofNat (nat_lit 312500000000000)), (.ofNat (nat_lit 328125000000000))⟩] := OnBox.glue (nat_lit 0) (.ofNat (nat_lit 945312500000000)) branin2_above_20 branin2_above_23

theorem branin2_above_18 : OnBox (AboveOr lagrange2E cons2E braninPars (.ofNat (nat_lit 12001000000000000))) [⟨(.ofNat (nat_lit 937500000000000)), (.ofNat (nat_lit 953125000000000))⟩, ⟨(.ofNat (nat_lit 312500000000000)), (.ofNat (nat_lit 343750000000000))⟩] := OnBox.glue (nat_lit 1) (.ofNat (nat_lit 328125000000000)) branin2_above_19 branin2_above_24

theorem branin2_above_17 : OnBox (AboveOr lagrange2E cons2E braninPars (.ofNat (nat_lit 12001000000000000))) [⟨(.ofNat (nat_lit 937500000000000)), (.ofNat (nat_lit 968750000000000))⟩, ⟨(.ofNat (nat_lit 312500000000000)), (.ofNat (nat_lit 343750000000000))⟩] := OnBox.glue (nat_lit 0) (.ofNat (nat_lit 953125000000000)) branin2_above_18 branin2_above_25

theorem branin2_above_16 : OnBox (AboveOr lagrange2E cons2E braninPars (.ofNat (nat_lit 12001000000000000))) [⟨(.ofNat (nat_lit 937500000000000)), (.ofNat (nat_lit 968750000000000))⟩, ⟨(.ofNat (nat_lit 312500000000000)), (.ofNat (nat_lit 375000000000000))⟩] := OnBox.glue (nat_lit 1) (.ofNat (nat_lit 343750000000000)) branin2_above_17 branin2_above_26

theorem branin2_above_15 : OnBox (AboveOr lagrange2E cons2E braninPars (.ofNat (nat_lit 12001000000000000))) [⟨(.ofNat (nat_lit 937500000000000)), (.ofNat (nat_lit 1000000000000000))⟩, ⟨(.ofNat (nat_lit 312500000000000)), (.ofNat (nat_lit 375000000000000))⟩] := OnBox.glue (nat_lit 0) (.ofNat (nat_lit 968750000000000)) branin2_above_16 branin2_above_27

theorem branin2_above_13 : OnBox (AboveOr lagrange2E cons2E braninPars (.ofNat (nat_lit 12001000000000000))) [⟨(.ofNat (nat_lit 937500000000000)), (.ofNat (nat_lit 1000000000000000))⟩, ⟨(.ofNat (nat_lit 250000000000000)), (.ofNat (nat_lit 375000000000000))⟩] := OnBox.glue (nat_lit 1) (.ofNat (nat_lit 312500000000000)) branin2_above_14 branin2_above_15

theorem branin2_above_11 : OnBox (AboveOr lagrange2E cons2E braninPars (.ofNat (nat_lit 12001000000000000))) [⟨(.ofNat (nat_lit 875000000000000)), (.ofNat (nat_lit 1000000000000000))⟩, ⟨(.ofNat (nat_lit 250000000000000)), (.ofNat (nat_lit 375000000000000))⟩] := OnBox.glue (nat_lit 0) (.ofNat (nat_lit 937500000000000)) branin2_above_12 branin2_above_13

theorem branin2_above_10 : OnBox (AboveOr lagrange2E cons2E braninPars (.ofNat (nat_lit 12001000000000000))) [⟨(.ofNat (nat_lit 875000000000000)), (.ofNat (nat_lit 1000000000000000))⟩, ⟨(.ofNat (nat_lit 250000000000000)), (.ofNat (nat_lit 500000000000000))⟩] := OnBox.glue (nat_lit 1) (.ofNat (nat_lit 375000000000000)) branin2_above_11 branin2_above_28

theorem branin2_above_8 : OnBox (AboveOr lagrange2E cons2E braninPars (.ofNat (nat_lit 12001000000000000))) [⟨(.ofNat (nat_lit 750000000000000)), (.ofNat (nat_lit 1000000000000000))⟩, ⟨(.ofNat (nat_lit 250000000000000)), (.ofNat (nat_lit 500000000000000))⟩] := OnBox.glue (nat_lit 0) (.ofNat (nat_lit 875000000000000)) branin2_above_9 branin2_above_10

theorem branin2_above_6 : OnBox (AboveOr lagrange2E cons2E braninPars (.ofNat (nat_lit 12001000000000000))) [⟨(.ofNat (nat_lit 750000000000000)), (.ofNat (nat_lit 1000000000000000))⟩, ⟨(.ofNat (nat_lit 0)), (.ofNat (nat_lit 500000000000000))⟩] := OnBox.glue (nat_lit 1) (.ofNat (nat_lit 250000000000000)) branin2_above_7 branin2_above_8

theorem branin2_above_4 : OnBox (AboveOr lagrange2E cons2E braninPars (.ofNat (nat_lit 12001000000000000))) [⟨(.ofNat (nat_lit 500000000000000)), (.ofNat (nat_lit 1000000000000000))⟩, ⟨(.ofNat (nat_lit 0)), (.ofNat (nat_lit 500000000000000))⟩] := OnBox.glue (nat_lit 0) (.ofNat (nat_lit 750000000000000)) branin2_above_5 branin2_above_6

theorem branin2_above_3 : OnBox (AboveOr lagrange2E cons2E braninPars (.ofNat (nat_lit 12001000000000000))) [⟨(.ofNat (nat_lit 500000000000000)), (.ofNat (nat_lit 1000000000000000))⟩, ⟨(.ofNat (nat_lit 0)), (.ofNat (nat_lit 1000000000000000))⟩] := OnBox.glue (nat_lit 1) (.ofNat (nat_lit 500000000000000)) branin2_above_4 branin2_above_29

theorem branin2_above_1 : OnBox (AboveOr lagrange2E cons2E braninPars (.ofNat (nat_lit 12001000000000000))) [⟨(.ofNat (nat_lit 0)), (.ofNat (nat_lit 1000000000000000))⟩, ⟨(.ofNat (nat_lit 0)), (.ofNat (nat_lit 1000000000000000))⟩] := OnBox.glue (nat_lit 0) (.ofNat (nat_lit 500000000000000)) branin2_above_2 branin2_above_3

theorem branin2_above : OnBox (AboveOr lagrange2E cons2E braninPars (.ofNat (nat_lit 12001000000000000))) [⟨(.ofNat (nat_lit 0)), (.ofNat (nat_lit 1000000000000000))⟩, ⟨(.ofNat (nat_lit 0)), (.ofNat (nat_lit 1000000000000000))⟩] := branin2_above_1

theorem branin1_point_low : OnBox (AbovePar braninE braninPars (.ofNat (nat_lit 5575650000000000))) [⟨(.ofNat (nat_lit 967730000000000)), (.ofNat (nat_lit 967730000000000))⟩, ⟨(.ofNat (nat_lit 206670000000000)), (.ofNat (nat_lit 206670000000000))⟩] :=
  abovePar_of_check (n := 2) (by decide +kernel)

theorem branin1_point_high : OnBox (AbovePar braninNegE braninPars (.negSucc (nat_lit 5575749999999999))) [⟨(.ofNat (nat_lit 967730000000000)), (.ofNat (nat_lit 967730000000000))⟩, ⟨(.ofNat (nat_lit 206670000000000)), (.ofNat (nat_lit 206670000000000))⟩] :=
  abovePar_of_check (n := 2) (by decide +kernel)

theorem branin2_point_high : OnBox (AbovePar braninNegE braninPars (.negSucc (nat_lit 11959999999999999))) [⟨(.ofNat (nat_lit 941000000000000)), (.ofNat (nat_lit 941000000000000))⟩, ⟨(.ofNat (nat_lit 317000000000000)), (.ofNat (nat_lit 317000000000000))⟩] :=
  abovePar_of_check (n := 2) (by decide +kernel)

theorem branin2_cons_point_low : OnBox (AbovePar cons2E braninPars (.ofNat (nat_lit 10000000000000))) [⟨(.ofNat (nat_lit 941000000000000)), (.ofNat (nat_lit 941000000000000))⟩, ⟨(.ofNat (nat_lit 317000000000000)), (.ofNat (nat_lit 317000000000000))⟩] :=
  abovePar_of_check (n := 2) (by decide +kernel)

theorem branin1_better_high : OnBox (AbovePar braninNegE braninPars (.negSucc (nat_lit 5575679999999999))) [⟨(.ofNat (nat_lit 967540000000000)), (.ofNat (nat_lit 967540000000000))⟩, ⟨(.ofNat (nat_lit 206710000000000)), (.ofNat (nat_lit 206710000000000))⟩] :=
  abovePar_of_check (n := 2) (by decide +kernel)

end Mfpml.IA
