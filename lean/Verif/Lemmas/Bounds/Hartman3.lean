import Verif.Lemmas.Bounds.Hartman3P1
import Verif.Lemmas.Bounds.Hartman3P2
import Verif.Lemmas.Bounds.Hartman3P3
import Verif.Lemmas.Bounds.Hartman3P4
import Verif.Lemmas.Bounds.Hartman3P5
import Verif.Lemmas.Bounds.Hartman3P6
import Verif.Lemmas.Bounds.Hartman3P7
import Verif.Lemmas.Bounds.Hartman3P8
import Verif.Lemmas.Bounds.Hartman3P9
import Verif.Lemmas.Bounds.Hartman3P10
import Verif.Lemmas.Bounds.Hartman3P11
import Verif.Lemmas.Bounds.Hartman3P12

/-! Written by tools/mkbounds.py. -/

namespace Mfpml.IA

theorem hartman3_above_28 : OnBox (Above hartman3E (.negSucc (nat_lit 3862791999999999))) [⟨(.ofNat (nat_lit 62500000000000)), (.ofNat (nat_lit 125000000000000))⟩, ⟨(.ofNat (nat_lit 546875000000000)), (.ofNat (nat_lit 562500000000000))⟩, ⟨(.ofNat (nat_lit 847656250000000)), (.ofNat (nat_lit 851562500000000))⟩] := OnBox.glue (nat_lit 1) (.ofNat (nat_lit 554687500000000)) hartman3_above_29 hartman3_above_30

theorem hartman3_above_26 : OnBox (Above hartman3E (.negSucc (nat_lit 3862791999999999))) [⟨(.ofNat (nat_lit 0)), (.ofNat (nat_lit 125000000000000))⟩, ⟨(.ofNat (nat_lit 546875000000000)), (.ofNat (nat_lit 562500000000000))⟩, ⟨(.ofNat (nat_lit 847656250000000)), (.ofNat (nat_lit 851562500000000))⟩] := OnBox.glue (nat_lit 0) (.ofNat (nat_lit 62500000000000)) hartman3_above_27 hartman3_above_28

theorem hartman3_above_24 : OnBox (Above hartman3E (.negSucc (nat_lit 3862791999999999))) [⟨(.ofNat (nat_lit 0)), (.ofNat (nat_lit 125000000000000))⟩, ⟨(.ofNat (nat_lit 546875000000000)), (.ofNat (nat_lit 562500000000000))⟩, ⟨(.ofNat (nat_lit 843750000000000)), (.ofNat (nat_lit 851562500000000))⟩] := OnBox.glue (nat_lit 2) (.ofNat (nat_lit 847656250000000)) hartman3_above_25 hartman3_above_26

theorem hartman3_above_31 : OnBox (Above hartman3E (.negSucc (nat_lit 3862791999999999))) [⟨(.ofNat (nat_lit 125000000000000)), (.ofNat (nat_lit 250000000000000))⟩, ⟨(.ofNat (nat_lit 546875000000000)), (.ofNat (nat_lit 562500000000000))⟩, ⟨(.ofNat (nat_lit 843750000000000)), (.ofNat (nat_lit 851562500000000))⟩] := OnBox.glue (nat_lit 0) (.ofNat (nat_lit 187500000000000)) hartman3_above_32 hartman3_above_33

theorem hartman3_above_23 : OnBox (Above hartman3E (.negSucc (nat_lit 3862791999999999))) [⟨(.ofNat (nat_lit 0)), (.ofNat (nat_lit 250000000000000))⟩, ⟨(.ofNat (nat_lit 546875000000000)), (.ofNat (nat_lit 562500000000000))⟩, ⟨(.ofNat (nat_lit 843750000000000)), (.ofNat (nat_lit 851562500000000))⟩] := OnBox.glue (nat_lit 0) (.ofNat (nat_lit 125000000000000)) hartman3_above_24 hartman3_above_31

theorem hartman3_above_43 : OnBox (Above hartman3E (.negSucc (nat_lit 3862791999999999))) [⟨(.ofNat (nat_lit 93750000000000)), (.ofNat (nat_lit 125000000000000))⟩, ⟨(.ofNat (nat_lit 550781250000000)), (.ofNat (nat_lit 554687500000000))⟩, ⟨(.ofNat (nat_lit 851562500000000)), (.ofNat (nat_lit 855468750000000))⟩] := OnBox.glue (nat_lit 2) (.ofNat (nat_lit 853515625000000)) hartman3_above_44 hartman3_above_45

theorem hartman3_above_41 : OnBox (Above hartman3E (.negSucc (nat_lit 3862791999999999))) [⟨(.ofNat (nat_lit 62500000000000)), (.ofNat (nat_lit 125000000000000))⟩, ⟨(.ofNat (nat_lit 550781250000000)), (.ofNat (nat_lit 554687500000000))⟩, ⟨(.ofNat (nat_lit 851562500000000)), (.ofNat (nat_lit 855468750000000))⟩] := OnBox.glue (nat_lit 0) (.ofNat (nat_lit 93750000000000)) hartman3_above_42 hartman3_above_43

theorem hartman3_above_39 : OnBox (Above hartman3E (.negSucc (nat_lit 3862791999999999))) [⟨(.ofNat (nat_lit 62500000000000)), (.ofNat (nat_lit 125000000000000))⟩, ⟨(.ofNat (nat_lit 546875000000000)), (.ofNat (nat_lit 554687500000000))⟩, ⟨(.ofNat (nat_lit 851562500000000)), (.ofNat (nat_lit 855468750000000))⟩] := OnBox.glue (nat_lit 1) (.ofNat (nat_lit 550781250000000)) hartman3_above_40 hartman3_above_41

theorem hartman3_above_56 : OnBox (Above hartman3E (.negSucc (nat_lit 3862791999999999))) [⟨(.ofNat (nat_lit 109375000000000)), (.ofNat (nat_lit 125000000000000))⟩, ⟨(.ofNat (nat_lit 554687500000000)), (.ofNat (nat_lit 556640625000000))⟩, ⟨(.ofNat (nat_lit 852050781250000)), (.ofNat (nat_lit 852539062500000))⟩] := OnBox.glue (nat_lit 0) (.ofNat (nat_lit 117187500000000)) hartman3_above_57 hartman3_above_58

theorem hartman3_above_54 : OnBox (Above hartman3E (.negSucc (nat_lit 3862791999999999))) [⟨(.ofNat (nat_lit 109375000000000)), (.ofNat (nat_lit 125000000000000))⟩, ⟨(.ofNat (nat_lit 554687500000000)), (.ofNat (nat_lit 556640625000000))⟩, ⟨(.ofNat (nat_lit 851562500000000)), (.ofNat (nat_lit 852539062500000))⟩] := OnBox.glue (nat_lit 2) (.ofNat (nat_lit 852050781250000)) hartman3_above_55 hartman3_above_56

theorem hartman3_above_60 : OnBox (Above hartman3E (.negSucc (nat_lit 3862791999999999))) [⟨(.ofNat (nat_lit 109375000000000)), (.ofNat (nat_lit 125000000000000))⟩, ⟨(.ofNat (nat_lit 554687500000000)), (.ofNat (nat_lit 556640625000000))⟩, ⟨(.ofNat (nat_lit 852539062500000)), (.ofNat (nat_lit 853027343750000))⟩] := OnBox.glue (nat_lit 0) (.ofNat (nat_lit 117187500000000)) hartman3_above_61 hartman3_above_62

theorem hartman3_above_59 : OnBox (Above hartman3E (.negSucc (nat_lit 3862791999999999))) [⟨(.ofNat (nat_lit 109375000000000)), (.ofNat (nat_lit 125000000000000))⟩, ⟨(.ofNat (nat_lit 554687500000000)), (.ofNat (nat_lit 556640625000000))⟩, ⟨(.ofNat (nat_lit 852539062500000)), (.ofNat (nat_lit 853515625000000))⟩] := OnBox.glue (nat_lit 2) (.ofNat (nat_lit 853027343750000)) hartman3_above_60 hartman3_above_63

theorem hartman3_above_53 : OnBox (Above hartman3E (.negSucc (nat_lit 3862791999999999))) [⟨(.ofNat (nat_lit 109375000000000)), (.ofNat (nat_lit 125000000000000))⟩, ⟨(.ofNat (nat_lit 554687500000000)), (.ofNat (nat_lit 556640625000000))⟩, ⟨(.ofNat (nat_lit 851562500000000)), (.ofNat (nat_lit 853515625000000))⟩] := OnBox.glue (nat_lit 2) (.ofNat (nat_lit 852539062500000)) hartman3_above_54 hartman3_above_59

theorem hartman3_above_51 : OnBox (Above hartman3E (.negSucc (nat_lit 3862791999999999))) [⟨(.ofNat (nat_lit 93750000000000)), (.ofNat (nat_lit 125000000000000))⟩, ⟨(.ofNat (nat_lit 554687500000000)), (.ofNat (nat_lit 556640625000000))⟩, ⟨(.ofNat (nat_lit 851562500000000)), (.ofNat (nat_lit 853515625000000))⟩] := OnBox.glue (nat_lit 0) (.ofNat (nat_lit 109375000000000)) hartman3_above_52 hartman3_above_53

theorem hartman3_above_50 : OnBox (Above hartman3E (.negSucc (nat_lit 3862791999999999))) [⟨(.ofNat (nat_lit 93750000000000)), (.ofNat (nat_lit 125000000000000))⟩, ⟨(.ofNat (nat_lit 554687500000000)), (.ofNat (nat_lit 558593750000000))⟩, ⟨(.ofNat (nat_lit 851562500000000)), (.ofNat (nat_lit 853515625000000))⟩] := OnBox.glue (nat_lit 1) (.ofNat (nat_lit 556640625000000)) hartman3_above_51 hartman3_above_64

theorem hartman3_above_49 : OnBox (Above hartman3E (.negSucc (nat_lit 3862791999999999))) [⟨(.ofNat (nat_lit 93750000000000)), (.ofNat (nat_lit 125000000000000))⟩, ⟨(.ofNat (nat_lit 554687500000000)), (.ofNat (nat_lit 558593750000000))⟩, ⟨(.ofNat (nat_lit 851562500000000)), (.ofNat (nat_lit 855468750000000))⟩] := OnBox.glue (nat_lit 2) (.ofNat (nat_lit 853515625000000)) hartman3_above_50 hartman3_above_65

theorem hartman3_above_47 : OnBox (Above hartman3E (.negSucc (nat_lit 3862791999999999))) [⟨(.ofNat (nat_lit 62500000000000)), (.ofNat (nat_lit 125000000000000))⟩, ⟨(.ofNat (nat_lit 554687500000000)), (.ofNat (nat_lit 558593750000000))⟩, ⟨(.ofNat (nat_lit 851562500000000)), (.ofNat (nat_lit 855468750000000))⟩] := OnBox.glue (nat_lit 0) (.ofNat (nat_lit 93750000000000)) hartman3_above_48 hartman3_above_49

theorem hartman3_above_46 : OnBox (Above hartman3E (.negSucc (nat_lit 3862791999999999))) [⟨(.ofNat (nat_lit 62500000000000)), (.ofNat (nat_lit 125000000000000))⟩, ⟨(.ofNat (nat_lit 554687500000000)), (.ofNat (nat_lit 562500000000000))⟩, ⟨(.ofNat (nat_lit 851562500000000)), (.ofNat (nat_lit 855468750000000))⟩] := OnBox.glue (nat_lit 1) (.ofNat (nat_lit 558593750000000)) hartman3_above_47 hartman3_above_66

theorem hartman3_above_38 : OnBox (Above hartman3E (.negSucc (nat_lit 3862791999999999))) [⟨(.ofNat (nat_lit 62500000000000)), (.ofNat (nat_lit 125000000000000))⟩, ⟨(.ofNat (nat_lit 546875000000000)), (.ofNat (nat_lit 562500000000000))⟩, ⟨(.ofNat (nat_lit 851562500000000)), (.ofNat (nat_lit 855468750000000))⟩] := OnBox.glue (nat_lit 1) (.ofNat (nat_lit 554687500000000)) hartman3_above_39 hartman3_above_46

theorem hartman3_above_37 : OnBox (Above hartman3E (.negSucc (nat_lit 3862791999999999))) [⟨(.ofNat (nat_lit 62500000000000)), (.ofNat (nat_lit 125000000000000))⟩, ⟨(.ofNat (nat_lit 546875000000000)), (.ofNat (nat_lit 562500000000000))⟩, ⟨(.ofNat (nat_lit 851562500000000)), (.ofNat (nat_lit 859375000000000))⟩] := OnBox.glue (nat_lit 2) (.ofNat (nat_lit 855468750000000)) hartman3_above_38 hartman3_above_67

theorem hartman3_above_35 : OnBox (Above hartman3E (.negSucc (nat_lit 3862791999999999))) [⟨(.ofNat (nat_lit 0)), (.ofNat (nat_lit 125000000000000))⟩, ⟨(.ofNat (nat_lit 546875000000000)), (.ofNat (nat_lit 562500000000000))⟩, ⟨(.ofNat (nat_lit 851562500000000)), (.ofNat (nat_lit 859375000000000))⟩] := OnBox.glue (nat_lit 0) (.ofNat (nat_lit 62500000000000)) hartman3_above_36 hartman3_above_37

theorem hartman3_above_72 : OnBox (Above hartman3E (.negSucc (nat_lit 3862791999999999))) [⟨(.ofNat (nat_lit 125000000000000)), (.ofNat (nat_lit 187500000000000))⟩, ⟨(.ofNat (nat_lit 554687500000000)), (.ofNat (nat_lit 562500000000000))⟩, ⟨(.ofNat (nat_lit 851562500000000)), (.ofNat (nat_lit 855468750000000))⟩] := OnBox.glue (nat_lit 0) (.ofNat (nat_lit 156250000000000)) hartman3_above_73 hartman3_above_74

theorem hartman3_above_70 : OnBox (Above hartman3E (.negSucc (nat_lit 3862791999999999))) [⟨(.ofNat (nat_lit 125000000000000)), (.ofNat (nat_lit 187500000000000))⟩, ⟨(.ofNat (nat_lit 546875000000000)), (.ofNat (nat_lit 562500000000000))⟩, ⟨(.ofNat (nat_lit 851562500000000)), (.ofNat (nat_lit 855468750000000))⟩] := OnBox.glue (nat_lit 1) (.ofNat (nat_lit 554687500000000)) hartman3_above_71 hartman3_above_72

theorem hartman3_above_69 : OnBox (Above hartman3E (.negSucc (nat_lit 3862791999999999))) [⟨(.ofNat (nat_lit 125000000000000)), (.ofNat (nat_lit 187500000000000))⟩, ⟨(.ofNat (nat_lit 546875000000000)), (.ofNat (nat_lit 562500000000000))⟩, ⟨(.ofNat (nat_lit 851562500000000)), (.ofNat (nat_lit 859375000000000))⟩] := OnBox.glue (nat_lit 2) (.ofNat (nat_lit 855468750000000)) hartman3_above_70 hartman3_above_75

theorem hartman3_above_68 : OnBox (Above hartman3E (.negSucc (nat_lit 3862791999999999))) [⟨(.ofNat (nat_lit 125000000000000)), (.ofNat (nat_lit 250000000000000))⟩, ⟨(.ofNat (nat_lit 546875000000000)), (.ofNat (nat_lit 562500000000000))⟩, ⟨(.ofNat (nat_lit 851562500000000)), (.ofNat (nat_lit 859375000000000))⟩] := OnBox.glue (nat_lit 0) (.ofNat (nat_lit 187500000000000)) hartman3_above_69 hartman3_above_76

theorem hartman3_above_34 : OnBox (Above hartman3E (.negSucc (nat_lit 3862791999999999))) [⟨(.ofNat (nat_lit 0)), (.ofNat (nat_lit 250000000000000))⟩, ⟨(.ofNat (nat_lit 546875000000000)), (.ofNat (nat_lit 562500000000000))⟩, ⟨(.ofNat (nat_lit 851562500000000)), (.ofNat (nat_lit 859375000000000))⟩] := OnBox.glue (nat_lit 0) (.ofNat (nat_lit 125000000000000)) hartman3_above_35 hartman3_above_68

theorem hartman3_above_22 : OnBox (Above hartman3E (.negSucc (nat_lit 3862791999999999))) [⟨(.ofNat (nat_lit 0)), (.ofNat (nat_lit 250000000000000))⟩, ⟨(.ofNat (nat_lit 546875000000000)), (.ofNat (nat_lit 562500000000000))⟩, ⟨(.ofNat (nat_lit 843750000000000)), (.ofNat (nat_lit 859375000000000))⟩] := OnBox.glue (nat_lit 2) (.ofNat (nat_lit 851562500000000)) hartman3_above_23 hartman3_above_34

theorem hartman3_above_20 : OnBox (Above hartman3E (.negSucc (nat_lit 3862791999999999))) [⟨(.ofNat (nat_lit 0)), (.ofNat (nat_lit 250000000000000))⟩, ⟨(.ofNat (nat_lit 531250000000000)), (.ofNat (nat_lit 562500000000000))⟩, ⟨(.ofNat (nat_lit 843750000000000)), (.ofNat (nat_lit 859375000000000))⟩] := OnBox.glue (nat_lit 1) (.ofNat (nat_lit 546875000000000)) hartman3_above_21 hartman3_above_22

theorem hartman3_above_19 : OnBox (Above hartman3E (.negSucc (nat_lit 3862791999999999))) [⟨(.ofNat (nat_lit 0)), (.ofNat (nat_lit 250000000000000))⟩, ⟨(.ofNat (nat_lit 531250000000000)), (.ofNat (nat_lit 562500000000000))⟩, ⟨(.ofNat (nat_lit 843750000000000)), (.ofNat (nat_lit 875000000000000))⟩] := OnBox.glue (nat_lit 2) (.ofNat (nat_lit 859375000000000)) hartman3_above_20 hartman3_above_77

theorem hartman3_above_18 : OnBox (Above hartman3E (.negSucc (nat_lit 3862791999999999))) [⟨(.ofNat (nat_lit 0)), (.ofNat (nat_lit 500000000000000))⟩, ⟨(.ofNat (nat_lit 531250000000000)), (.ofNat (nat_lit 562500000000000))⟩, ⟨(.ofNat (nat_lit 843750000000000)), (.ofNat (nat_lit 875000000000000))⟩] := OnBox.glue (nat_lit 0) (.ofNat (nat_lit 250000000000000)) hartman3_above_19 hartman3_above_78

theorem hartman3_above_16 : OnBox (Above hartman3E (.negSucc (nat_lit 3862791999999999))) [⟨(.ofNat (nat_lit 0)), (.ofNat (nat_lit 500000000000000))⟩, ⟨(.ofNat (nat_lit 500000000000000)), (.ofNat (nat_lit 562500000000000))⟩, ⟨(.ofNat (nat_lit 843750000000000)), (.ofNat (nat_lit 875000000000000))⟩] := OnBox.glue (nat_lit 1) (.ofNat (nat_lit 531250000000000)) hartman3_above_17 hartman3_above_18

theorem hartman3_above_14 : OnBox (Above hartman3E (.negSucc (nat_lit 3862791999999999))) [⟨(.ofNat (nat_lit 0)), (.ofNat (nat_lit 500000000000000))⟩, ⟨(.ofNat (nat_lit 500000000000000)), (.ofNat (nat_lit 562500000000000))⟩, ⟨(.ofNat (nat_lit 812500000000000)), (.ofNat (nat_lit 875000000000000))⟩] := OnBox.glue (nat_lit 2) (.ofNat (nat_lit 843750000000000)) hartman3_above_15 hartman3_above_16

theorem hartman3_above_85 : OnBox (Above hartman3E (.negSucc (nat_lit 3862791999999999))) [⟨(.ofNat (nat_lit 0)), (.ofNat (nat_lit 250000000000000))⟩, ⟨(.ofNat (nat_lit 562500000000000)), (.ofNat (nat_lit 578125000000000))⟩, ⟨(.ofNat (nat_lit 843750000000000)), (.ofNat (nat_lit 859375000000000))⟩] := OnBox.glue (nat_lit 2) (.ofNat (nat_lit 851562500000000)) hartman3_above_86 hartman3_above_87

theorem hartman3_above_84 : OnBox (Above hartman3E (.negSucc (nat_lit 3862791999999999))) [⟨(.ofNat (nat_lit 0)), (.ofNat (nat_lit 250000000000000))⟩, ⟨(.ofNat (nat_lit 562500000000000)), (.ofNat (nat_lit 593750000000000))⟩, ⟨(.ofNat (nat_lit 843750000000000)), (.ofNat (nat_lit 859375000000000))⟩] := OnBox.glue (nat_lit 1) (.ofNat (nat_lit 578125000000000)) hartman3_above_85 hartman3_above_88

theorem hartman3_above_83 : OnBox (Above hartman3E (.negSucc (nat_lit 3862791999999999))) [⟨(.ofNat (nat_lit 0)), (.ofNat (nat_lit 250000000000000))⟩, ⟨(.ofNat (nat_lit 562500000000000)), (.ofNat (nat_lit 593750000000000))⟩, ⟨(.ofNat (nat_lit 843750000000000)), (.ofNat (nat_lit 875000000000000))⟩] := OnBox.glue (nat_lit 2) (.ofNat (nat_lit 859375000000000)) hartman3_above_84 hartman3_above_89

theorem hartman3_above_82 : OnBox (Above hartman3E (.negSucc (nat_lit 3862791999999999))) [⟨(.ofNat (nat_lit 0)), (.ofNat (nat_lit 500000000000000))⟩, ⟨(.ofNat (nat_lit 562500000000000)), (.ofNat (nat_lit 593750000000000))⟩, ⟨(.ofNat (nat_lit 843750000000000)), (.ofNat (nat_lit 875000000000000))⟩] := OnBox.glue (nat_lit 0) (.ofNat (nat_lit 250000000000000)) hartman3_above_83 hartman3_above_90

theorem hartman3_above_81 : OnBox (Above hartman3E (.negSucc (nat_lit 3862791999999999))) [⟨(.ofNat (nat_lit 0)), (.ofNat (nat_lit 500000000000000))⟩, ⟨(.ofNat (nat_lit 562500000000000)), (.ofNat (nat_lit 625000000000000))⟩, ⟨(.ofNat (nat_lit 843750000000000)), (.ofNat (nat_lit 875000000000000))⟩] := OnBox.glue (nat_lit 1) (.ofNat (nat_lit 593750000000000)) hartman3_above_82 hartman3_above_91

theorem hartman3_above_79 : OnBox (Above hartman3E (.negSucc (nat_lit 3862791999999999))) [⟨(.ofNat (nat_lit 0)), (.ofNat (nat_lit 500000000000000))⟩, ⟨(.ofNat (nat_lit 562500000000000)), (.ofNat (nat_lit 625000000000000))⟩, ⟨(.ofNat (nat_lit 812500000000000)), (.ofNat (nat_lit 875000000000000))⟩] := OnBox.glue (nat_lit 2) (.ofNat (nat_lit 843750000000000)) hartman3_above_80 hartman3_above_81

theorem hartman3_above_13 : OnBox (Above hartman3E (.negSucc (nat_lit 3862791999999999))) [⟨(.ofNat (nat_lit 0)), (.ofNat (nat_lit 500000000000000))⟩, ⟨(.ofNat (nat_lit 500000000000000)), (.ofNat (nat_lit 625000000000000))⟩, ⟨(.ofNat (nat_lit 812500000000000)), (.ofNat (nat_lit 875000000000000))⟩] := OnBox.glue (nat_lit 1) (.ofNat (nat_lit 562500000000000)) hartman3_above_14 hartman3_above_79

theorem hartman3_above_11 : OnBox (Above hartman3E (.negSucc (nat_lit 3862791999999999))) [⟨(.ofNat (nat_lit 0)), (.ofNat (nat_lit 500000000000000))⟩, ⟨(.ofNat (nat_lit 500000000000000)), (.ofNat (nat_lit 625000000000000))⟩, ⟨(.ofNat (nat_lit 750000000000000)), (.ofNat (nat_lit 875000000000000))⟩] := OnBox.glue (nat_lit 2) (.ofNat (nat_lit 812500000000000)) hartman3_above_12 hartman3_above_13

theorem hartman3_above_10 : OnBox (Above hartman3E (.negSucc (nat_lit 3862791999999999))) [⟨(.ofNat (nat_lit 0)), (.ofNat (nat_lit 500000000000000))⟩, ⟨(.ofNat (nat_lit 500000000000000)), (.ofNat (nat_lit 750000000000000))⟩, ⟨(.ofNat (nat_lit 750000000000000)), (.ofNat (nat_lit 875000000000000))⟩] := OnBox.glue (nat_lit 1) (.ofNat (nat_lit 625000000000000)) hartman3_above_11 hartman3_above_92

theorem hartman3_above_9 : OnBox (Above hartman3E (.negSucc (nat_lit 3862791999999999))) [⟨(.ofNat (nat_lit 0)), (.ofNat (nat_lit 1000000000000000))⟩, ⟨(.ofNat (nat_lit 500000000000000)), (.ofNat (nat_lit 750000000000000))⟩, ⟨(.ofNat (nat_lit 750000000000000)), (.ofNat (nat_lit 875000000000000))⟩] := OnBox.glue (nat_lit 0) (.ofNat (nat_lit 500000000000000)) hartman3_above_10 hartman3_above_93

theorem hartman3_above_8 : OnBox (Above hartman3E (.negSucc (nat_lit 3862791999999999))) [⟨(.ofNat (nat_lit 0)), (.ofNat (nat_lit 1000000000000000))⟩, ⟨(.ofNat (nat_lit 500000000000000)), (.ofNat (nat_lit 750000000000000))⟩, ⟨(.ofNat (nat_lit 750000000000000)), (.ofNat (nat_lit 1000000000000000))⟩] := OnBox.glue (nat_lit 2) (.ofNat (nat_lit 875000000000000)) hartman3_above_9 hartman3_above_94

theorem hartman3_above_7 : OnBox (Above hartman3E (.negSucc (nat_lit 3862791999999999))) [⟨(.ofNat (nat_lit 0)), (.ofNat (nat_lit 1000000000000000))⟩, ⟨(.ofNat (nat_lit 500000000000000)), (.ofNat (nat_lit 1000000000000000))⟩, ⟨(.ofNat (nat_lit 750000000000000)), (.ofNat (nat_lit 1000000000000000))⟩] := OnBox.glue (nat_lit 1) (.ofNat (nat_lit 750000000000000)) hartman3_above_8 hartman3_above_95

theorem hartman3_above_5 : OnBox (Above hartman3E (.negSucc (nat_lit 3862791999999999))) [⟨(.ofNat (nat_lit 0)), (.ofNat (nat_lit 1000000000000000))⟩, ⟨(.ofNat (nat_lit 500000000000000)), (.ofNat (nat_lit 1000000000000000))⟩, ⟨(.ofNat (nat_lit 500000000000000)), (.ofNat (nat_lit 1000000000000000))⟩] := OnBox.glue (nat_lit 2) (.ofNat (nat_lit 750000000000000)) hartman3_above_6 hartman3_above_7

theorem hartman3_above_3 : OnBox (Above hartman3E (.negSucc (nat_lit 3862791999999999))) [⟨(.ofNat (nat_lit 0)), (.ofNat (nat_lit 1000000000000000))⟩, ⟨(.ofNat (nat_lit 0)), (.ofNat (nat_lit 1000000000000000))⟩, ⟨(.ofNat (nat_lit 500000000000000)), (.ofNat (nat_lit 1000000000000000))⟩] := OnBox.glue (nat_lit 1) (.ofNat (nat_lit 500000000000000)) hartman3_above_4 hartman3_above_5

theorem hartman3_above_1 : OnBox (Above hartman3E (.negSucc (nat_lit 3862791999999999))) [⟨(.ofNat (nat_lit 0)), (.ofNat (nat_lit 1000000000000000))⟩, ⟨(.ofNat (nat_lit 0)), (.ofNat (nat_lit 1000000000000000))⟩, ⟨(.ofNat (nat_lit 0)), (.ofNat (nat_lit 1000000000000000))⟩] := OnBox.glue (nat_lit 2) (.ofNat (nat_lit 500000000000000)) hartman3_above_2 hartman3_above_3

theorem hartman3_above : OnBox (Above hartman3E (.negSucc (nat_lit 3862791999999999))) [⟨(.ofNat (nat_lit 0)), (.ofNat (nat_lit 1000000000000000))⟩, ⟨(.ofNat (nat_lit 0)), (.ofNat (nat_lit 1000000000000000))⟩, ⟨(.ofNat (nat_lit 0)), (.ofNat (nat_lit 1000000000000000))⟩] := hartman3_above_1

theorem hartman3_point_low : OnBox (Above hartman3E (.negSucc (nat_lit 3862699999999999))) [⟨(.ofNat (nat_lit 100000000000000)), (.ofNat (nat_lit 100000000000000))⟩, ⟨(.ofNat (nat_lit 555920030000000)), (.ofNat (nat_lit 555920030000000))⟩, ⟨(.ofNat (nat_lit 852182590000000)), (.ofNat (nat_lit 852182590000000))⟩] :=
  above_of_check (n := 2) (by decide +kernel)

end Mfpml.IA
