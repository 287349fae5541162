import Verif.Lemmas.Bounds.SasenaE

/-! Written by tools/mkbounds.py. -/

namespace Mfpml.IA

theorem sasena_above_26 : OnBox (Above sasenaE (.negSucc (nat_lit 1456599999999999))) [⟨(.ofNat (nat_lit 2500000000000000)), (.ofNat (nat_lit 5000000000000000))⟩, ⟨(.ofNat (nat_lit 0)), (.ofNat (nat_lit 2500000000000000))⟩] :=
  above_of_check (n := 60) (by decide +kernel)

theorem sasena_above_38 : OnBox (Above sasenaE (.negSucc (nat_lit 1456599999999999))) [⟨(.ofNat (nat_lit 2500000000000000)), (.ofNat (nat_lit 2578125000000000))⟩, ⟨(.ofNat (nat_lit 2500000000000000)), (.ofNat (nat_lit 2539062500000000))⟩] :=
  above_of_check (n := 60) (by decide +kernel)

theorem sasena_above_41 : OnBox (Above sasenaE (.negSucc (nat_lit 1456599999999999))) [⟨(.ofNat (nat_lit 2500000000000000)), (.ofNat (nat_lit 2539062500000000))⟩, ⟨(.ofNat (nat_lit 2539062500000000)), (.ofNat (nat_lit 2558593750000000))⟩] :=
  above_of_check (n := 60) (by decide +kernel)

theorem sasena_above_43 : OnBox (Above sasenaE (.negSucc (nat_lit 1456599999999999))) [⟨(.ofNat (nat_lit 2500000000000000)), (.ofNat (nat_lit 2519531250000000))⟩, ⟨(.ofNat (nat_lit 2558593750000000)), (.ofNat (nat_lit 2578125000000000))⟩] :=
  above_of_check (n := 60) (by decide +kernel)

end Mfpml.IA
