import Verif.Lemmas.Bounds.Hartman6P1
import Verif.Lemmas.Bounds.Hartman6P2
import Verif.Lemmas.Bounds.Hartman6P3
import Verif.Lemmas.Bounds.Hartman6P4
import Verif.Lemmas.Bounds.Hartman6P5
import Verif.Lemmas.Bounds.Hartman6P6
import Verif.Lemmas.Bounds.Hartman6P7
import Verif.Lemmas.Bounds.Hartman6P8
import Verif.Lemmas.Bounds.Hartman6P9
import Verif.Lemmas.Bounds.Hartman6P10

/-! Written by tools/mkbounds.py. -/

namespace Mfpml.IA

theorem hartman6_above0_1 : OnBox (AboveQ centroid0 hartman6E (.negSucc (nat_lit 3323199999999999))) [⟨(.ofNat (nat_lit 0)), (.ofNat (nat_lit 1000000000000000))⟩, ⟨(.ofNat (nat_lit 0)), (.ofNat (nat_lit 1000000000000000))⟩] := OnBox.glue (nat_lit 1) (.ofNat (nat_lit 500000000000000)) hartman6_above0_2 hartman6_above0_3

theorem hartman6_above0 : OnBox (AboveQ centroid0 hartman6E (.negSucc (nat_lit 3323199999999999))) [⟨(.ofNat (nat_lit 0)), (.ofNat (nat_lit 1000000000000000))⟩, ⟨(.ofNat (nat_lit 0)), (.ofNat (nat_lit 1000000000000000))⟩] := hartman6_above0_1

theorem hartman6_above1 : OnBox (AboveQ centroid1 hartman6E (.negSucc (nat_lit 3323199999999999))) [⟨(.ofNat (nat_lit 0)), (.ofNat (nat_lit 1000000000000000))⟩, ⟨(.ofNat (nat_lit 0)), (.ofNat (nat_lit 1000000000000000))⟩] := hartman6_above1_1

theorem hartman6_above2_10 : OnBox (AboveQ centroid2 hartman6E (.negSucc (nat_lit 3323199999999999))) [⟨(.ofNat (nat_lit 0)), (.ofNat (nat_lit 62500000000000))⟩, ⟨(.ofNat (nat_lit 0)), (.ofNat (nat_lit 31250000000000))⟩] := OnBox.glue (nat_lit 0) (.ofNat (nat_lit 31250000000000)) hartman6_above2_11 hartman6_above2_12

theorem hartman6_above2_9 : OnBox (AboveQ centroid2 hartman6E (.negSucc (nat_lit 3323199999999999))) [⟨(.ofNat (nat_lit 0)), (.ofNat (nat_lit 62500000000000))⟩, ⟨(.ofNat (nat_lit 0)), (.ofNat (nat_lit 62500000000000))⟩] := OnBox.glue (nat_lit 1) (.ofNat (nat_lit 31250000000000)) hartman6_above2_10 hartman6_above2_13

theorem hartman6_above2_8 : OnBox (AboveQ centroid2 hartman6E (.negSucc (nat_lit 3323199999999999))) [⟨(.ofNat (nat_lit 0)), (.ofNat (nat_lit 62500000000000))⟩, ⟨(.ofNat (nat_lit 0)), (.ofNat (nat_lit 125000000000000))⟩] := OnBox.glue (nat_lit 1) (.ofNat (nat_lit 62500000000000)) hartman6_above2_9 hartman6_above2_14

theorem hartman6_above2_18 : OnBox (AboveQ centroid2 hartman6E (.negSucc (nat_lit 3323199999999999))) [⟨(.ofNat (nat_lit 62500000000000)), (.ofNat (nat_lit 93750000000000))⟩, ⟨(.ofNat (nat_lit 0)), (.ofNat (nat_lit 31250000000000))⟩] := OnBox.glue (nat_lit 1) (.ofNat (nat_lit 15625000000000)) hartman6_above2_19 hartman6_above2_20

theorem hartman6_above2_22 : OnBox (AboveQ centroid2 hartman6E (.negSucc (nat_lit 3323199999999999))) [⟨(.ofNat (nat_lit 93750000000000)), (.ofNat (nat_lit 125000000000000))⟩, ⟨(.ofNat (nat_lit 0)), (.ofNat (nat_lit 15625000000000))⟩] := OnBox.glue (nat_lit 1) (.ofNat (nat_lit 7812500000000)) hartman6_above2_23 hartman6_above2_24

theorem hartman6_above2_21 : OnBox (AboveQ centroid2 hartman6E (.negSucc (nat_lit 3323199999999999))) [⟨(.ofNat (nat_lit 93750000000000)), (.ofNat (nat_lit 125000000000000))⟩, ⟨(.ofNat (nat_lit 0)), (.ofNat (nat_lit 31250000000000))⟩] := OnBox.glue (nat_lit 1) (.ofNat (nat_lit 15625000000000)) hartman6_above2_22 hartman6_above2_25

theorem hartman6_above2_17 : OnBox (AboveQ centroid2 hartman6E (.negSucc (nat_lit 3323199999999999))) [⟨(.ofNat (nat_lit 62500000000000)), (.ofNat (nat_lit 125000000000000))⟩, ⟨(.ofNat (nat_lit 0)), (.ofNat (nat_lit 31250000000000))⟩] := OnBox.glue (nat_lit 0) (.ofNat (nat_lit 93750000000000)) hartman6_above2_18 hartman6_above2_21

theorem hartman6_above2_16 : OnBox (AboveQ centroid2 hartman6E (.negSucc (nat_lit 3323199999999999))) [⟨(.ofNat (nat_lit 62500000000000)), (.ofNat (nat_lit 125000000000000))⟩, ⟨(.ofNat (nat_lit 0)), (.ofNat (nat_lit 62500000000000))⟩] := OnBox.glue (nat_lit 1) (.ofNat (nat_lit 31250000000000)) hartman6_above2_17 hartman6_above2_26

theorem hartman6_above2_15 : OnBox (AboveQ centroid2 hartman6E (.negSucc (nat_lit 3323199999999999))) [⟨(.ofNat (nat_lit 62500000000000)), (.ofNat (nat_lit 125000000000000))⟩, ⟨(.ofNat (nat_lit 0)), (.ofNat (nat_lit 125000000000000))⟩] := OnBox.glue (nat_lit 1) (.ofNat (nat_lit 62500000000000)) hartman6_above2_16 hartman6_above2_27

theorem hartman6_above2_7 : OnBox (AboveQ centroid2 hartman6E (.negSucc (nat_lit 3323199999999999))) [⟨(.ofNat (nat_lit 0)), (.ofNat (nat_lit 125000000000000))⟩, ⟨(.ofNat (nat_lit 0)), (.ofNat (nat_lit 125000000000000))⟩] := OnBox.glue (nat_lit 0) (.ofNat (nat_lit 62500000000000)) hartman6_above2_8 hartman6_above2_15

theorem hartman6_above2_6 : OnBox (AboveQ centroid2 hartman6E (.negSucc (nat_lit 3323199999999999))) [⟨(.ofNat (nat_lit 0)), (.ofNat (nat_lit 125000000000000))⟩, ⟨(.ofNat (nat_lit 0)), (.ofNat (nat_lit 250000000000000))⟩] := OnBox.glue (nat_lit 1) (.ofNat (nat_lit 125000000000000)) hartman6_above2_7 hartman6_above2_28

theorem hartman6_above2_36 : OnBox (AboveQ centroid2 hartman6E (.negSucc (nat_lit 3323199999999999))) [⟨(.ofNat (nat_lit 125000000000000)), (.ofNat (nat_lit 156250000000000))⟩, ⟨(.ofNat (nat_lit 0)), (.ofNat (nat_lit 7812500000000))⟩] := OnBox.glue (nat_lit 0) (.ofNat (nat_lit 140625000000000)) hartman6_above2_37 hartman6_above2_38

theorem hartman6_above2_35 : OnBox (AboveQ centroid2 hartman6E (.negSucc (nat_lit 3323199999999999))) [⟨(.ofNat (nat_lit 125000000000000)), (.ofNat (nat_lit 156250000000000))⟩, ⟨(.ofNat (nat_lit 0)), (.ofNat (nat_lit 15625000000000))⟩] := OnBox.glue (nat_lit 1) (.ofNat (nat_lit 7812500000000)) hartman6_above2_36 hartman6_above2_39

theorem hartman6_above2_34 : OnBox (AboveQ centroid2 hartman6E (.negSucc (nat_lit 3323199999999999))) [⟨(.ofNat (nat_lit 125000000000000)), (.ofNat (nat_lit 156250000000000))⟩, ⟨(.ofNat (nat_lit 0)), (.ofNat (nat_lit 31250000000000))⟩] := OnBox.glue (nat_lit 1) (.ofNat (nat_lit 15625000000000)) hartman6_above2_35 hartman6_above2_40

theorem hartman6_above2_33 : OnBox (AboveQ centroid2 hartman6E (.negSucc (nat_lit 3323199999999999))) [⟨(.ofNat (nat_lit 125000000000000)), (.ofNat (nat_lit 187500000000000))⟩, ⟨(.ofNat (nat_lit 0)), (.ofNat (nat_lit 31250000000000))⟩] := OnBox.glue (nat_lit 0) (.ofNat (nat_lit 156250000000000)) hartman6_above2_34 hartman6_above2_41

theorem hartman6_above2_32 : OnBox (AboveQ centroid2 hartman6E (.negSucc (nat_lit 3323199999999999))) [⟨(.ofNat (nat_lit 125000000000000)), (.ofNat (nat_lit 187500000000000))⟩, ⟨(.ofNat (nat_lit 0)), (.ofNat (nat_lit 62500000000000))⟩] := OnBox.glue (nat_lit 1) (.ofNat (nat_lit 31250000000000)) hartman6_above2_33 hartman6_above2_42

theorem hartman6_above2_31 : OnBox (AboveQ centroid2 hartman6E (.negSucc (nat_lit 3323199999999999))) [⟨(.ofNat (nat_lit 125000000000000)), (.ofNat (nat_lit 187500000000000))⟩, ⟨(.ofNat (nat_lit 0)), (.ofNat (nat_lit 125000000000000))⟩] := OnBox.glue (nat_lit 1) (.ofNat (nat_lit 62500000000000)) hartman6_above2_32 hartman6_above2_43

theorem hartman6_above2_30 : OnBox (AboveQ centroid2 hartman6E (.negSucc (nat_lit 3323199999999999))) [⟨(.ofNat (nat_lit 125000000000000)), (.ofNat (nat_lit 250000000000000))⟩, ⟨(.ofNat (nat_lit 0)), (.ofNat (nat_lit 125000000000000))⟩] := OnBox.glue (nat_lit 0) (.ofNat (nat_lit 187500000000000)) hartman6_above2_31 hartman6_above2_44

theorem hartman6_above2_29 : OnBox (AboveQ centroid2 hartman6E (.negSucc (nat_lit 3323199999999999))) [⟨(.ofNat (nat_lit 125000000000000)), (.ofNat (nat_lit 250000000000000))⟩, ⟨(.ofNat (nat_lit 0)), (.ofNat (nat_lit 250000000000000))⟩] := OnBox.glue (nat_lit 1) (.ofNat (nat_lit 125000000000000)) hartman6_above2_30 hartman6_above2_45

theorem hartman6_above2_5 : OnBox (AboveQ centroid2 hartman6E (.negSucc (nat_lit 3323199999999999))) [⟨(.ofNat (nat_lit 0)), (.ofNat (nat_lit 250000000000000))⟩, ⟨(.ofNat (nat_lit 0)), (.ofNat (nat_lit 250000000000000))⟩] := OnBox.glue (nat_lit 0) (.ofNat (nat_lit 125000000000000)) hartman6_above2_6 hartman6_above2_29

theorem hartman6_above2_4 : OnBox (AboveQ centroid2 hartman6E (.negSucc (nat_lit 3323199999999999))) [⟨(.ofNat (nat_lit 0)), (.ofNat (nat_lit 250000000000000))⟩, ⟨(.ofNat (nat_lit 0)), (.ofNat (nat_lit 500000000000000))⟩] := OnBox.glue (nat_lit 1) (.ofNat (nat_lit 250000000000000)) hartman6_above2_5 hartman6_above2_46

theorem hartman6_above2_48 : OnBox (AboveQ centroid2 hartman6E (.negSucc (nat_lit 3323199999999999))) [⟨(.ofNat (nat_lit 250000000000000)), (.ofNat (nat_lit 500000000000000))⟩, ⟨(.ofNat (nat_lit 0)), (.ofNat (nat_lit 250000000000000))⟩] := OnBox.glue (nat_lit 0) (.ofNat (nat_lit 375000000000000)) hartman6_above2_49 hartman6_above2_50

theorem hartman6_above2_47 : OnBox (AboveQ centroid2 hartman6E (.negSucc (nat_lit 3323199999999999))) [⟨(.ofNat (nat_lit 250000000000000)), (.ofNat (nat_lit 500000000000000))⟩, ⟨(.ofNat (nat_lit 0)), (.ofNat (nat_lit 500000000000000))⟩] := OnBox.glue (nat_lit 1) (.ofNat (nat_lit 250000000000000)) hartman6_above2_48 hartman6_above2_51

theorem hartman6_above2_3 : OnBox (AboveQ centroid2 hartman6E (.negSucc (nat_lit 3323199999999999))) [⟨(.ofNat (nat_lit 0)), (.ofNat (nat_lit 500000000000000))⟩, ⟨(.ofNat (nat_lit 0)), (.ofNat (nat_lit 500000000000000))⟩] := OnBox.glue (nat_lit 0) (.ofNat (nat_lit 250000000000000)) hartman6_above2_4 hartman6_above2_47

theorem hartman6_above2_2 : OnBox (AboveQ centroid2 hartman6E (.negSucc (nat_lit 3323199999999999))) [⟨(.ofNat (nat_lit 0)), (.ofNat (nat_lit 500000000000000))⟩, ⟨(.ofNat (nat_lit 0)), (.ofNat (nat_lit 1000000000000000))⟩] := OnBox.glue (nat_lit 1) (.ofNat (nat_lit 500000000000000)) hartman6_above2_3 hartman6_above2_52

theorem hartman6_above2_53 : OnBox (AboveQ centroid2 hartman6E (.negSucc (nat_lit 3323199999999999))) [⟨(.ofNat (nat_lit 500000000000000)), (.ofNat (nat_lit 1000000000000000))⟩, ⟨(.ofNat (nat_lit 0)), (.ofNat (nat_lit 1000000000000000))⟩] := OnBox.glue (nat_lit 1) (.ofNat (nat_lit 500000000000000)) hartman6_above2_54 hartman6_above2_55

theorem hartman6_above2_1 : OnBox (AboveQ centroid2 hartman6E (.negSucc (nat_lit 3323199999999999))) [⟨(.ofNat (nat_lit 0)), (.ofNat (nat_lit 1000000000000000))⟩, ⟨(.ofNat (nat_lit 0)), (.ofNat (nat_lit 1000000000000000))⟩] := OnBox.glue (nat_lit 0) (.ofNat (nat_lit 500000000000000)) hartman6_above2_2 hartman6_above2_53

theorem hartman6_above2 : OnBox (AboveQ centroid2 hartman6E (.negSucc (nat_lit 3323199999999999))) [⟨(.ofNat (nat_lit 0)), (.ofNat (nat_lit 1000000000000000))⟩, ⟨(.ofNat (nat_lit 0)), (.ofNat (nat_lit 1000000000000000))⟩] := hartman6_above2_1

theorem hartman6_point_low : OnBox (Above hartman6FullE (.negSucc (nat_lit 3322368019999999))) [⟨(.ofNat (nat_lit 201689520000000)), (.ofNat (nat_lit 201689520000000))⟩, ⟨(.ofNat (nat_lit 150010690000000)), (.ofNat (nat_lit 150010690000000))⟩, ⟨(.ofNat (nat_lit 476873980000000)), (.ofNat (nat_lit 476873980000000))⟩, ⟨(.ofNat (nat_lit 275332430000000)), (.ofNat (nat_lit 275332430000000))⟩, ⟨(.ofNat (nat_lit 311651620000000)), (.ofNat (nat_lit 311651620000000))⟩, ⟨(.ofNat (nat_lit 657300540000000)), (.ofNat (nat_lit 657300540000000))⟩] :=
  above_of_check (n := 2) (by decide +kernel)

theorem hartman6_point_high : OnBox (Above hartman6NegE (.ofNat (nat_lit 3322368000000000))) [⟨(.ofNat (nat_lit 201689520000000)), (.ofNat (nat_lit 201689520000000))⟩, ⟨(.ofNat (nat_lit 150010690000000)), (.ofNat (nat_lit 150010690000000))⟩, ⟨(.ofNat (nat_lit 476873980000000)), (.ofNat (nat_lit 476873980000000))⟩, ⟨(.ofNat (nat_lit 275332430000000)), (.ofNat (nat_lit 275332430000000))⟩, ⟨(.ofNat (nat_lit 311651620000000)), (.ofNat (nat_lit 311651620000000))⟩, ⟨(.ofNat (nat_lit 657300540000000)), (.ofNat (nat_lit 657300540000000))⟩] :=
  above_of_check (n := 2) (by decide +kernel)

end Mfpml.IA
