import Verif.Lemmas.Bounds.SixhumpP1
import Verif.Lemmas.Bounds.SixhumpP2
import Verif.Lemmas.Bounds.SixhumpP3
import Verif.Lemmas.Bounds.SixhumpP4
import Verif.Lemmas.Bounds.SixhumpP5

/-! Written by tools/mkbounds.py. -/

namespace Mfpml.IA

theorem sixhump_above_3 : OnBox (Above sixhumpE (.negSucc (nat_lit 3095099999999999))) [⟨(.negSucc (nat_lit 2999999999999999)), (.negSucc (nat_lit 1499999999999999))⟩, ⟨(.negSucc (nat_lit 1999999999999999)), (.ofNat (nat_lit 2000000000000000))⟩] := OnBox.glue (nat_lit 0) (.negSucc (nat_lit 2249999999999999)) sixhump_above_4 sixhump_above_5

theorem sixhump_above_22 : OnBox (Above sixhumpE (.negSucc (nat_lit 3095099999999999))) [⟨(.negSucc (nat_lit 187499999999999)), (.ofNat (nat_lit 0))⟩, ⟨(.ofNat (nat_lit 687500000000000)), (.ofNat (nat_lit 750000000000000))⟩] := OnBox.glue (nat_lit 0) (.negSucc (nat_lit 93749999999999)) sixhump_above_23 sixhump_above_24

theorem sixhump_above_20 : OnBox (Above sixhumpE (.negSucc (nat_lit 3095099999999999))) [⟨(.negSucc (nat_lit 187499999999999)), (.ofNat (nat_lit 0))⟩, ⟨(.ofNat (nat_lit 625000000000000)), (.ofNat (nat_lit 750000000000000))⟩] := OnBox.glue (nat_lit 1) (.ofNat (nat_lit 687500000000000)) sixhump_above_21 sixhump_above_22

theorem sixhump_above_18 : OnBox (Above sixhumpE (.negSucc (nat_lit 3095099999999999))) [⟨(.negSucc (nat_lit 374999999999999)), (.ofNat (nat_lit 0))⟩, ⟨(.ofNat (nat_lit 625000000000000)), (.ofNat (nat_lit 750000000000000))⟩] := OnBox.glue (nat_lit 0) (.negSucc (nat_lit 187499999999999)) sixhump_above_19 sixhump_above_20

theorem sixhump_above_16 : OnBox (Above sixhumpE (.negSucc (nat_lit 3095099999999999))) [⟨(.negSucc (nat_lit 374999999999999)), (.ofNat (nat_lit 0))⟩, ⟨(.ofNat (nat_lit 500000000000000)), (.ofNat (nat_lit 750000000000000))⟩] := OnBox.glue (nat_lit 1) (.ofNat (nat_lit 625000000000000)) sixhump_above_17 sixhump_above_18

theorem sixhump_above_15 : OnBox (Above sixhumpE (.negSucc (nat_lit 3095099999999999))) [⟨(.negSucc (nat_lit 374999999999999)), (.ofNat (nat_lit 0))⟩, ⟨(.ofNat (nat_lit 500000000000000)), (.ofNat (nat_lit 1000000000000000))⟩] := OnBox.glue (nat_lit 1) (.ofNat (nat_lit 750000000000000)) sixhump_above_16 sixhump_above_25

theorem sixhump_above_13 : OnBox (Above sixhumpE (.negSucc (nat_lit 3095099999999999))) [⟨(.negSucc (nat_lit 749999999999999)), (.ofNat (nat_lit 0))⟩, ⟨(.ofNat (nat_lit 500000000000000)), (.ofNat (nat_lit 1000000000000000))⟩] := OnBox.glue (nat_lit 0) (.negSucc (nat_lit 374999999999999)) sixhump_above_14 sixhump_above_15

theorem sixhump_above_11 : OnBox (Above sixhumpE (.negSucc (nat_lit 3095099999999999))) [⟨(.negSucc (nat_lit 749999999999999)), (.ofNat (nat_lit 0))⟩, ⟨(.ofNat (nat_lit 0)), (.ofNat (nat_lit 1000000000000000))⟩] := OnBox.glue (nat_lit 1) (.ofNat (nat_lit 500000000000000)) sixhump_above_12 sixhump_above_13

theorem sixhump_above_9 : OnBox (Above sixhumpE (.negSucc (nat_lit 3095099999999999))) [⟨(.negSucc (nat_lit 1499999999999999)), (.ofNat (nat_lit 0))⟩, ⟨(.ofNat (nat_lit 0)), (.ofNat (nat_lit 1000000000000000))⟩] := OnBox.glue (nat_lit 0) (.negSucc (nat_lit 749999999999999)) sixhump_above_10 sixhump_above_11

theorem sixhump_above_8 : OnBox (Above sixhumpE (.negSucc (nat_lit 3095099999999999))) [⟨(.negSucc (nat_lit 1499999999999999)), (.ofNat (nat_lit 0))⟩, ⟨(.ofNat (nat_lit 0)), (.ofNat (nat_lit 2000000000000000))⟩] := OnBox.glue (nat_lit 1) (.ofNat (nat_lit 1000000000000000)) sixhump_above_9 sixhump_above_26

theorem sixhump_above_6 : OnBox (Above sixhumpE (.negSucc (nat_lit 3095099999999999))) [⟨(.negSucc (nat_lit 1499999999999999)), (.ofNat (nat_lit 0))⟩, ⟨(.negSucc (nat_lit 1999999999999999)), (.ofNat (nat_lit 2000000000000000))⟩] := OnBox.glue (nat_lit 1) (.ofNat (nat_lit 0)) sixhump_above_7 sixhump_above_8

theorem sixhump_above_2 : OnBox (Above sixhumpE (.negSucc (nat_lit 3095099999999999))) [⟨(.negSucc (nat_lit 2999999999999999)), (.ofNat (nat_lit 0))⟩, ⟨(.negSucc (nat_lit 1999999999999999)), (.ofNat (nat_lit 2000000000000000))⟩] := OnBox.glue (nat_lit 0) (.negSucc (nat_lit 1499999999999999)) sixhump_above_3 sixhump_above_6

theorem sixhump_above_39 : OnBox (Above sixhumpE (.negSucc (nat_lit 3095099999999999))) [⟨(.ofNat (nat_lit 0)), (.ofNat (nat_lit 187500000000000))⟩, ⟨(.negSucc (nat_lit 749999999999999)), (.negSucc (nat_lit 687499999999999))⟩] := OnBox.glue (nat_lit 0) (.ofNat (nat_lit 93750000000000)) sixhump_above_40 sixhump_above_41

theorem sixhump_above_38 : OnBox (Above sixhumpE (.negSucc (nat_lit 3095099999999999))) [⟨(.ofNat (nat_lit 0)), (.ofNat (nat_lit 187500000000000))⟩, ⟨(.negSucc (nat_lit 749999999999999)), (.negSucc (nat_lit 624999999999999))⟩] := OnBox.glue (nat_lit 1) (.negSucc (nat_lit 687499999999999)) sixhump_above_39 sixhump_above_42

theorem sixhump_above_37 : OnBox (Above sixhumpE (.negSucc (nat_lit 3095099999999999))) [⟨(.ofNat (nat_lit 0)), (.ofNat (nat_lit 375000000000000))⟩, ⟨(.negSucc (nat_lit 749999999999999)), (.negSucc (nat_lit 624999999999999))⟩] := OnBox.glue (nat_lit 0) (.ofNat (nat_lit 187500000000000)) sixhump_above_38 sixhump_above_43

theorem sixhump_above_36 : OnBox (Above sixhumpE (.negSucc (nat_lit 3095099999999999))) [⟨(.ofNat (nat_lit 0)), (.ofNat (nat_lit 375000000000000))⟩, ⟨(.negSucc (nat_lit 749999999999999)), (.negSucc (nat_lit 499999999999999))⟩] := OnBox.glue (nat_lit 1) (.negSucc (nat_lit 624999999999999)) sixhump_above_37 sixhump_above_44

theorem sixhump_above_34 : OnBox (Above sixhumpE (.negSucc (nat_lit 3095099999999999))) [⟨(.ofNat (nat_lit 0)), (.ofNat (nat_lit 375000000000000))⟩, ⟨(.negSucc (nat_lit 999999999999999)), (.negSucc (nat_lit 499999999999999))⟩] := OnBox.glue (nat_lit 1) (.negSucc (nat_lit 749999999999999)) sixhump_above_35 sixhump_above_36

theorem sixhump_above_33 : OnBox (Above sixhumpE (.negSucc (nat_lit 3095099999999999))) [⟨(.ofNat (nat_lit 0)), (.ofNat (nat_lit 750000000000000))⟩, ⟨(.negSucc (nat_lit 999999999999999)), (.negSucc (nat_lit 499999999999999))⟩] := OnBox.glue (nat_lit 0) (.ofNat (nat_lit 375000000000000)) sixhump_above_34 sixhump_above_45

theorem sixhump_above_32 : OnBox (Above sixhumpE (.negSucc (nat_lit 3095099999999999))) [⟨(.ofNat (nat_lit 0)), (.ofNat (nat_lit 750000000000000))⟩, ⟨(.negSucc (nat_lit 999999999999999)), (.ofNat (nat_lit 0))⟩] := OnBox.glue (nat_lit 1) (.negSucc (nat_lit 499999999999999)) sixhump_above_33 sixhump_above_46

theorem sixhump_above_31 : OnBox (Above sixhumpE (.negSucc (nat_lit 3095099999999999))) [⟨(.ofNat (nat_lit 0)), (.ofNat (nat_lit 1500000000000000))⟩, ⟨(.negSucc (nat_lit 999999999999999)), (.ofNat (nat_lit 0))⟩] := OnBox.glue (nat_lit 0) (.ofNat (nat_lit 750000000000000)) sixhump_above_32 sixhump_above_47

theorem sixhump_above_29 : OnBox (Above sixhumpE (.negSucc (nat_lit 3095099999999999))) [⟨(.ofNat (nat_lit 0)), (.ofNat (nat_lit 1500000000000000))⟩, ⟨(.negSucc (nat_lit 1999999999999999)), (.ofNat (nat_lit 0))⟩] := OnBox.glue (nat_lit 1) (.negSucc (nat_lit 999999999999999)) sixhump_above_30 sixhump_above_31

theorem sixhump_above_28 : OnBox (Above sixhumpE (.negSucc (nat_lit 3095099999999999))) [⟨(.ofNat (nat_lit 0)), (.ofNat (nat_lit 1500000000000000))⟩, ⟨(.negSucc (nat_lit 1999999999999999)), (.ofNat (nat_lit 2000000000000000))⟩] := OnBox.glue (nat_lit 1) (.ofNat (nat_lit 0)) sixhump_above_29 sixhump_above_48

theorem sixhump_above_49 : OnBox (Above sixhumpE (.negSucc (nat_lit 3095099999999999))) [⟨(.ofNat (nat_lit 1500000000000000)), (.ofNat (nat_lit 3000000000000000))⟩, ⟨(.negSucc (nat_lit 1999999999999999)), (.ofNat (nat_lit 2000000000000000))⟩] := OnBox.glue (nat_lit 0) (.ofNat (nat_lit 2250000000000000)) sixhump_above_50 sixhump_above_51

theorem sixhump_above_27 : OnBox (Above sixhumpE (.negSucc (nat_lit 3095099999999999))) [⟨(.ofNat (nat_lit 0)), (.ofNat (nat_lit 3000000000000000))⟩, ⟨(.negSucc (nat_lit 1999999999999999)), (.ofNat (nat_lit 2000000000000000))⟩] := OnBox.glue (nat_lit 0) (.ofNat (nat_lit 1500000000000000)) sixhump_above_28 sixhump_above_49

theorem sixhump_above_1 : OnBox (Above sixhumpE (.negSucc (nat_lit 3095099999999999))) [⟨(.negSucc (nat_lit 2999999999999999)), (.ofNat (nat_lit 3000000000000000))⟩, ⟨(.negSucc (nat_lit 1999999999999999)), (.ofNat (nat_lit 2000000000000000))⟩] := OnBox.glue (nat_lit 0) (.ofNat (nat_lit 0)) sixhump_above_2 sixhump_above_27

theorem sixhump_above : OnBox (Above sixhumpE (.negSucc (nat_lit 3095099999999999))) [⟨(.negSucc (nat_lit 2999999999999999)), (.ofNat (nat_lit 3000000000000000))⟩, ⟨(.negSucc (nat_lit 1999999999999999)), (.ofNat (nat_lit 2000000000000000))⟩] := sixhump_above_1

end Mfpml.IA
