import Verif.Lemmas.Bounds.SasenaP1
import Verif.Lemmas.Bounds.SasenaP2
import Verif.Lemmas.Bounds.SasenaP3
import Verif.Lemmas.Bounds.SasenaP4

/-! Written by tools/mkbounds.py. -/

namespace Mfpml.IA

theorem sasena_above_18 : OnBox (Above sasenaE (.negSucc (nat_lit 1456599999999999))) [⟨(.ofNat (nat_lit 2421875000000000)), (.ofNat (nat_lit 2500000000000000))⟩, ⟨(.ofNat (nat_lit 2500000000000000)), (.ofNat (nat_lit 2656250000000000))⟩] := OnBox.glue (nat_lit 1) (.ofNat (nat_lit 2578125000000000)) sasena_above_19 sasena_above_20

theorem sasena_above_16 : OnBox (Above sasenaE (.negSucc (nat_lit 1456599999999999))) [⟨(.ofNat (nat_lit 2343750000000000)), (.ofNat (nat_lit 2500000000000000))⟩, ⟨(.ofNat (nat_lit 2500000000000000)), (.ofNat (nat_lit 2656250000000000))⟩] := OnBox.glue (nat_lit 0) (.ofNat (nat_lit 2421875000000000)) sasena_above_17 sasena_above_18

theorem sasena_above_15 : OnBox (Above sasenaE (.negSucc (nat_lit 1456599999999999))) [⟨(.ofNat (nat_lit 2343750000000000)), (.ofNat (nat_lit 2500000000000000))⟩, ⟨(.ofNat (nat_lit 2500000000000000)), (.ofNat (nat_lit 2812500000000000))⟩] := OnBox.glue (nat_lit 1) (.ofNat (nat_lit 2656250000000000)) sasena_above_16 sasena_above_21

theorem sasena_above_13 : OnBox (Above sasenaE (.negSucc (nat_lit 1456599999999999))) [⟨(.ofNat (nat_lit 2187500000000000)), (.ofNat (nat_lit 2500000000000000))⟩, ⟨(.ofNat (nat_lit 2500000000000000)), (.ofNat (nat_lit 2812500000000000))⟩] := OnBox.glue (nat_lit 0) (.ofNat (nat_lit 2343750000000000)) sasena_above_14 sasena_above_15

theorem sasena_above_12 : OnBox (Above sasenaE (.negSucc (nat_lit 1456599999999999))) [⟨(.ofNat (nat_lit 2187500000000000)), (.ofNat (nat_lit 2500000000000000))⟩, ⟨(.ofNat (nat_lit 2500000000000000)), (.ofNat (nat_lit 3125000000000000))⟩] := OnBox.glue (nat_lit 1) (.ofNat (nat_lit 2812500000000000)) sasena_above_13 sasena_above_22

theorem sasena_above_10 : OnBox (Above sasenaE (.negSucc (nat_lit 1456599999999999))) [⟨(.ofNat (nat_lit 1875000000000000)), (.ofNat (nat_lit 2500000000000000))⟩, ⟨(.ofNat (nat_lit 2500000000000000)), (.ofNat (nat_lit 3125000000000000))⟩] := OnBox.glue (nat_lit 0) (.ofNat (nat_lit 2187500000000000)) sasena_above_11 sasena_above_12

theorem sasena_above_9 : OnBox (Above sasenaE (.negSucc (nat_lit 1456599999999999))) [⟨(.ofNat (nat_lit 1875000000000000)), (.ofNat (nat_lit 2500000000000000))⟩, ⟨(.ofNat (nat_lit 2500000000000000)), (.ofNat (nat_lit 3750000000000000))⟩] := OnBox.glue (nat_lit 1) (.ofNat (nat_lit 3125000000000000)) sasena_above_10 sasena_above_23

theorem sasena_above_7 : OnBox (Above sasenaE (.negSucc (nat_lit 1456599999999999))) [⟨(.ofNat (nat_lit 1250000000000000)), (.ofNat (nat_lit 2500000000000000))⟩, ⟨(.ofNat (nat_lit 2500000000000000)), (.ofNat (nat_lit 3750000000000000))⟩] := OnBox.glue (nat_lit 0) (.ofNat (nat_lit 1875000000000000)) sasena_above_8 sasena_above_9

theorem sasena_above_6 : OnBox (Above sasenaE (.negSucc (nat_lit 1456599999999999))) [⟨(.ofNat (nat_lit 1250000000000000)), (.ofNat (nat_lit 2500000000000000))⟩, ⟨(.ofNat (nat_lit 2500000000000000)), (.ofNat (nat_lit 5000000000000000))⟩] := OnBox.glue (nat_lit 1) (.ofNat (nat_lit 3750000000000000)) sasena_above_7 sasena_above_24

theorem sasena_above_4 : OnBox (Above sasenaE (.negSucc (nat_lit 1456599999999999))) [⟨(.ofNat (nat_lit 0)), (.ofNat (nat_lit 2500000000000000))⟩, ⟨(.ofNat (nat_lit 2500000000000000)), (.ofNat (nat_lit 5000000000000000))⟩] := OnBox.glue (nat_lit 0) (.ofNat (nat_lit 1250000000000000)) sasena_above_5 sasena_above_6

theorem sasena_above_2 : OnBox (Above sasenaE (.negSucc (nat_lit 1456599999999999))) [⟨(.ofNat (nat_lit 0)), (.ofNat (nat_lit 2500000000000000))⟩, ⟨(.ofNat (nat_lit 0)), (.ofNat (nat_lit 5000000000000000))⟩] := OnBox.glue (nat_lit 1) (.ofNat (nat_lit 2500000000000000)) sasena_above_3 sasena_above_4

theorem sasena_above_42 : OnBox (Above sasenaE (.negSucc (nat_lit 1456599999999999))) [⟨(.ofNat (nat_lit 2500000000000000)), (.ofNat (nat_lit 2539062500000000))⟩, ⟨(.ofNat (nat_lit 2558593750000000)), (.ofNat (nat_lit 2578125000000000))⟩] := OnBox.glue (nat_lit 0) (.ofNat (nat_lit 2519531250000000)) sasena_above_43 sasena_above_44

theorem sasena_above_40 : OnBox (Above sasenaE (.negSucc (nat_lit 1456599999999999))) [⟨(.ofNat (nat_lit 2500000000000000)), (.ofNat (nat_lit 2539062500000000))⟩, ⟨(.ofNat (nat_lit 2539062500000000)), (.ofNat (nat_lit 2578125000000000))⟩] := OnBox.glue (nat_lit 1) (.ofNat (nat_lit 2558593750000000)) sasena_above_41 sasena_above_42

theorem sasena_above_39 : OnBox (Above sasenaE (.negSucc (nat_lit 1456599999999999))) [⟨(.ofNat (nat_lit 2500000000000000)), (.ofNat (nat_lit 2578125000000000))⟩, ⟨(.ofNat (nat_lit 2539062500000000)), (.ofNat (nat_lit 2578125000000000))⟩] := OnBox.glue (nat_lit 0) (.ofNat (nat_lit 2539062500000000)) sasena_above_40 sasena_above_45

theorem sasena_above_37 : OnBox (Above sasenaE (.negSucc (nat_lit 1456599999999999))) [⟨(.ofNat (nat_lit 2500000000000000)), (.ofNat (nat_lit 2578125000000000))⟩, ⟨(.ofNat (nat_lit 2500000000000000)), (.ofNat (nat_lit 2578125000000000))⟩] := OnBox.glue (nat_lit 1) (.ofNat (nat_lit 2539062500000000)) sasena_above_38 sasena_above_39

theorem sasena_above_36 : OnBox (Above sasenaE (.negSucc (nat_lit 1456599999999999))) [⟨(.ofNat (nat_lit 2500000000000000)), (.ofNat (nat_lit 2578125000000000))⟩, ⟨(.ofNat (nat_lit 2500000000000000)), (.ofNat (nat_lit 2656250000000000))⟩] := OnBox.glue (nat_lit 1) (.ofNat (nat_lit 2578125000000000)) sasena_above_37 sasena_above_46

theorem sasena_above_35 : OnBox (Above sasenaE (.negSucc (nat_lit 1456599999999999))) [⟨(.ofNat (nat_lit 2500000000000000)), (.ofNat (nat_lit 2656250000000000))⟩, ⟨(.ofNat (nat_lit 2500000000000000)), (.ofNat (nat_lit 2656250000000000))⟩] := OnBox.glue (nat_lit 0) (.ofNat (nat_lit 2578125000000000)) sasena_above_36 sasena_above_47

theorem sasena_above_34 : OnBox (Above sasenaE (.negSucc (nat_lit 1456599999999999))) [⟨(.ofNat (nat_lit 2500000000000000)), (.ofNat (nat_lit 2656250000000000))⟩, ⟨(.ofNat (nat_lit 2500000000000000)), (.ofNat (nat_lit 2812500000000000))⟩] := OnBox.glue (nat_lit 1) (.ofNat (nat_lit 2656250000000000)) sasena_above_35 sasena_above_48

theorem sasena_above_33 : OnBox (Above sasenaE (.negSucc (nat_lit 1456599999999999))) [⟨(.ofNat (nat_lit 2500000000000000)), (.ofNat (nat_lit 2812500000000000))⟩, ⟨(.ofNat (nat_lit 2500000000000000)), (.ofNat (nat_lit 2812500000000000))⟩] := OnBox.glue (nat_lit 0) (.ofNat (nat_lit 2656250000000000)) sasena_above_34 sasena_above_49

theorem sasena_above_32 : OnBox (Above sasenaE (.negSucc (nat_lit 1456599999999999))) [⟨(.ofNat (nat_lit 2500000000000000)), (.ofNat (nat_lit 2812500000000000))⟩, ⟨(.ofNat (nat_lit 2500000000000000)), (.ofNat (nat_lit 3125000000000000))⟩] := OnBox.glue (nat_lit 1) (.ofNat (nat_lit 2812500000000000)) sasena_above_33 sasena_above_50

theorem sasena_above_31 : OnBox (Above sasenaE (.negSucc (nat_lit 1456599999999999))) [⟨(.ofNat (nat_lit 2500000000000000)), (.ofNat (nat_lit 3125000000000000))⟩, ⟨(.ofNat (nat_lit 2500000000000000)), (.ofNat (nat_lit 3125000000000000))⟩] := OnBox.glue (nat_lit 0) (.ofNat (nat_lit 2812500000000000)) sasena_above_32 sasena_above_51

theorem sasena_above_30 : OnBox (Above sasenaE (.negSucc (nat_lit 1456599999999999))) [⟨(.ofNat (nat_lit 2500000000000000)), (.ofNat (nat_lit 3125000000000000))⟩, ⟨(.ofNat (nat_lit 2500000000000000)), (.ofNat (nat_lit 3750000000000000))⟩] := OnBox.glue (nat_lit 1) (.ofNat (nat_lit 3125000000000000)) sasena_above_31 sasena_above_52

theorem sasena_above_29 : OnBox (Above sasenaE (.negSucc (nat_lit 1456599999999999))) [⟨(.ofNat (nat_lit 2500000000000000)), (.ofNat (nat_lit 3750000000000000))⟩, ⟨(.ofNat (nat_lit 2500000000000000)), (.ofNat (nat_lit 3750000000000000))⟩] := OnBox.glue (nat_lit 0) (.ofNat (nat_lit 3125000000000000)) sasena_above_30 sasena_above_53

theorem sasena_above_28 : OnBox (Above sasenaE (.negSucc (nat_lit 1456599999999999))) [⟨(.ofNat (nat_lit 2500000000000000)), (.ofNat (nat_lit 3750000000000000))⟩, ⟨(.ofNat (nat_lit 2500000000000000)), (.ofNat (nat_lit 5000000000000000))⟩] := OnBox.glue (nat_lit 1) (.ofNat (nat_lit 3750000000000000)) sasena_above_29 sasena_above_54

theorem sasena_above_27 : OnBox (Above sasenaE (.negSucc (nat_lit 1456599999999999))) [⟨(.ofNat (nat_lit 2500000000000000)), (.ofNat (nat_lit 5000000000000000))⟩, ⟨(.ofNat (nat_lit 2500000000000000)), (.ofNat (nat_lit 5000000000000000))⟩] := OnBox.glue (nat_lit 0) (.ofNat (nat_lit 3750000000000000)) sasena_above_28 sasena_above_55

theorem sasena_above_25 : OnBox (Above sasenaE (.negSucc (nat_lit 1456599999999999))) [⟨(.ofNat (nat_lit 2500000000000000)), (.ofNat (nat_lit 5000000000000000))⟩, ⟨(.ofNat (nat_lit 0)), (.ofNat (nat_lit 5000000000000000))⟩] := OnBox.glue (nat_lit 1) (.ofNat (nat_lit 2500000000000000)) sasena_above_26 sasena_above_27

theorem sasena_above_1 : OnBox (Above sasenaE (.negSucc (nat_lit 1456599999999999))) [⟨(.ofNat (nat_lit 0)), (.ofNat (nat_lit 5000000000000000))⟩, ⟨(.ofNat (nat_lit 0)), (.ofNat (nat_lit 5000000000000000))⟩] := OnBox.glue (nat_lit 0) (.ofNat (nat_lit 2500000000000000)) sasena_above_2 sasena_above_25

theorem sasena_above : OnBox (Above sasenaE (.negSucc (nat_lit 1456599999999999))) [⟨(.ofNat (nat_lit 0)), (.ofNat (nat_lit 5000000000000000))⟩, ⟨(.ofNat (nat_lit 0)), (.ofNat (nat_lit 5000000000000000))⟩] := sasena_above_1

theorem sasena_point_low : OnBox (Above sasenaE (.negSucc (nat_lit 1456529999999999))) [⟨(.ofNat (nat_lit 2504400000000000)), (.ofNat (nat_lit 2504400000000000))⟩, ⟨(.ofNat (nat_lit 2577800000000000)), (.ofNat (nat_lit 2577800000000000))⟩] :=
  above_of_check (n := 2) (by decide +kernel)

theorem sasena_point_high : OnBox (Above sasenaNegE (.ofNat (nat_lit 1456520000000000))) [⟨(.ofNat (nat_lit 2504400000000000)), (.ofNat (nat_lit 2504400000000000))⟩, ⟨(.ofNat (nat_lit 2577800000000000)), (.ofNat (nat_lit 2577800000000000))⟩] :=
  above_of_check (n := 2) (by decide +kernel)

end Mfpml.IA
