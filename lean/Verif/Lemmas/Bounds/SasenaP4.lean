import Verif.Lemmas.Bounds.SasenaE

/-! Written by tools/mkbounds.py. -/

namespace Mfpml.IA

theorem sasena_above_44 : OnBox (Above sasenaE (.negSucc (nat_lit 1456599999999999))) [⟨(.ofNat (nat_lit 2519531250000000)), (.ofNat (nat_lit 2539062500000000))⟩, ⟨(.ofNat (nat_lit 2558593750000000)), (.ofNat (nat_lit 2578125000000000))⟩] :=
  above_of_check (n := 60) (by decide +kernel)

theorem sasena_above_45 : OnBox (Above sasenaE (.negSucc (nat_lit 1456599999999999))) [⟨(.ofNat (nat_lit 2539062500000000)), (.ofNat (nat_lit 2578125000000000))⟩, ⟨(.ofNat (nat_lit 2539062500000000)), (.ofNat (nat_lit 2578125000000000))⟩] :=
  above_of_check (n := 60) (by decide +kernel)

theorem sasena_above_46 : OnBox (Above sasenaE (.negSucc (nat_lit 1456599999999999))) [⟨(.ofNat (nat_lit 2500000000000000)), (.ofNat (nat_lit 2578125000000000))⟩, ⟨(.ofNat (nat_lit 2578125000000000)), (.ofNat (nat_lit 2656250000000000))⟩] :=
  above_of_check (n := 60) (by decide +kernel)

theorem sasena_above_47 : OnBox (Above sasenaE (.negSucc (nat_lit 1456599999999999))) [⟨(.ofNat (nat_lit 2578125000000000)), (.ofNat (nat_lit 2656250000000000))⟩, ⟨(.ofNat (nat_lit 2500000000000000)), (.ofNat (nat_lit 2656250000000000))⟩] :=
  above_of_check (n := 60) (by decide +kernel)

theorem sasena_above_48 : OnBox (Above sasenaE (.negSucc (nat_lit 1456599999999999))) [⟨(.ofNat (nat_lit 2500000000000000)), (.ofNat (nat_lit 2656250000000000))⟩, ⟨(.ofNat (nat_lit 2656250000000000)), (.ofNat (nat_lit 2812500000000000))⟩] :=
  above_of_check (n := 60) (by decide +kernel)

theorem sasena_above_49 : OnBox (Above sasenaE (.negSucc (nat_lit 1456599999999999))) [⟨(.ofNat (nat_lit 2656250000000000)), (.ofNat (nat_lit 2812500000000000))⟩, ⟨(.ofNat (nat_lit 2500000000000000)), (.ofNat (nat_lit 2812500000000000))⟩] :=
  above_of_check (n := 60) (by decide +kernel)

theorem sasena_above_50 : OnBox (Above sasenaE (.negSucc (nat_lit 1456599999999999))) [⟨(.ofNat (nat_lit 2500000000000000)), (.ofNat (nat_lit 2812500000000000))⟩, ⟨(.ofNat (nat_lit 2812500000000000)), (.ofNat (nat_lit 3125000000000000))⟩] :=
  above_of_check (n := 60) (by decide +kernel)

theorem sasena_above_51 : OnBox (Above sasenaE (.negSucc (nat_lit 1456599999999999))) [⟨(.ofNat (nat_lit 2812500000000000)), (.ofNat (nat_lit 3125000000000000))⟩, ⟨(.ofNat (nat_lit 2500000000000000)), (.ofNat (nat_lit 3125000000000000))⟩] :=
  above_of_check (n := 60) (by decide +kernel)

theorem sasena_above_52 : OnBox (Above sasenaE (.negSucc (nat_lit 1456599999999999))) [⟨(.ofNat (nat_lit 2500000000000000)), (.ofNat (nat_lit 3125000000000000))⟩, ⟨(.ofNat (nat_lit 3125000000000000)), (.ofNat (nat_lit 3750000000000000))⟩] :=
  above_of_check (n := 60) (by decide +kernel)

theorem sasena_above_53 : OnBox (Above sasenaE (.negSucc (nat_lit 1456599999999999))) [⟨(.ofNat (nat_lit 3125000000000000)), (.ofNat (nat_lit 3750000000000000))⟩, ⟨(.ofNat (nat_lit 2500000000000000)), (.ofNat (nat_lit 3750000000000000))⟩] :=
  above_of_check (n := 60) (by decide +kernel)

theorem sasena_above_54 : OnBox (Above sasenaE (.negSucc (nat_lit 1456599999999999))) [⟨(.ofNat (nat_lit 2500000000000000)), (.ofNat (nat_lit 3750000000000000))⟩, ⟨(.ofNat (nat_lit 3750000000000000)), (.ofNat (nat_lit 5000000000000000))⟩] :=
  above_of_check (n := 60) (by decide +kernel)

theorem sasena_above_55 : OnBox (Above sasenaE (.negSucc (nat_lit 1456599999999999))) [⟨(.ofNat (nat_lit 3750000000000000)), (.ofNat (nat_lit 5000000000000000))⟩, ⟨(.ofNat (nat_lit 2500000000000000)), (.ofNat (nat_lit 5000000000000000))⟩] :=
  above_of_check (n := 60) (by decide +kernel)

end Mfpml.IA
