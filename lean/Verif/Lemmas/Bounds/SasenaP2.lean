import Verif.Lemmas.Bounds.SasenaE

/-! Written by tools/mkbounds.py. -/

namespace Mfpml.IA

theorem sasena_above_20 : OnBox (Above sasenaE (.negSucc (nat_lit 1456599999999999))) [⟨(.ofNat (nat_lit 2421875000000000)), (.ofNat (nat_lit 2500000000000000))⟩, ⟨(.ofNat (nat_lit 2578125000000000)), (.ofNat (nat_lit 2656250000000000))⟩] :=
  above_of_check (n := 60) (by decide +kernel)

theorem sasena_above_21 : OnBox (Above sasenaE (.negSucc (nat_lit 1456599999999999))) [⟨(.ofNat (nat_lit 2343750000000000)), (.ofNat (nat_lit 2500000000000000))⟩, ⟨(.ofNat (nat_lit 2656250000000000)), (.ofNat (nat_lit 2812500000000000))⟩] :=
  above_of_check (n := 60) (by decide +kernel)

theorem sasena_above_22 : OnBox (Above sasenaE (.negSucc (nat_lit 1456599999999999))) [⟨(.ofNat (nat_lit 2187500000000000)), (.ofNat (nat_lit 2500000000000000))⟩, ⟨(.ofNat (nat_lit 2812500000000000)), (.ofNat (nat_lit 3125000000000000))⟩] :=
  above_of_check (n := 60) (by decide +kernel)

theorem sasena_above_23 : OnBox (Above sasenaE (.negSucc (nat_lit 1456599999999999))) [⟨(.ofNat (nat_lit 1875000000000000)), (.ofNat (nat_lit 2500000000000000))⟩, ⟨(.ofNat (nat_lit 3125000000000000)), (.ofNat (nat_lit 3750000000000000))⟩] :=
  above_of_check (n := 60) (by decide +kernel)

theorem sasena_above_24 : OnBox (Above sasenaE (.negSucc (nat_lit 1456599999999999))) [⟨(.ofNat (nat_lit 1250000000000000)), (.ofNat (nat_lit 2500000000000000))⟩, ⟨(.ofNat (nat_lit 3750000000000000)), (.ofNat (nat_lit 5000000000000000))⟩] :=
  above_of_check (n := 60) (by decide +kernel)

end Mfpml.IA
