import Verif.Lemmas.Bounds.SixhumpE

/-! Written by tools/mkbounds.py. -/

namespace Mfpml.IA

theorem sixhump_above_14 : OnBox (Above sixhumpE (.negSucc (nat_lit 3095099999999999))) [⟨(.negSucc (nat_lit 749999999999999)), (.negSucc (nat_lit 374999999999999))⟩, ⟨(.ofNat (nat_lit 500000000000000)), (.ofNat (nat_lit 1000000000000000))⟩] :=
  above_of_check (n := 60) (by decide +kernel)

theorem sixhump_above_17 : OnBox (Above sixhumpE (.negSucc (nat_lit 3095099999999999))) [⟨(.negSucc (nat_lit 374999999999999)), (.ofNat (nat_lit 0))⟩, ⟨(.ofNat (nat_lit 500000000000000)), (.ofNat (nat_lit 625000000000000))⟩] :=
  above_of_check (n := 60) (by decide +kernel)

theorem sixhump_above_19 : OnBox (Above sixhumpE (.negSucc (nat_lit 3095099999999999))) [⟨(.negSucc (nat_lit 374999999999999)), (.negSucc (nat_lit 187499999999999))⟩, ⟨(.ofNat (nat_lit 625000000000000)), (.ofNat (nat_lit 750000000000000))⟩] :=
  above_of_check (n := 60) (by decide +kernel)

theorem sixhump_above_21 : OnBox (Above sixhumpE (.negSucc (nat_lit 3095099999999999))) [⟨(.negSucc (nat_lit 187499999999999)), (.ofNat (nat_lit 0))⟩, ⟨(.ofNat (nat_lit 625000000000000)), (.ofNat (nat_lit 687500000000000))⟩] :=
  above_of_check (n := 60) (by decide +kernel)

theorem sixhump_above_23 : OnBox (Above sixhumpE (.negSucc (nat_lit 3095099999999999))) [⟨(.negSucc (nat_lit 187499999999999)), (.negSucc (nat_lit 93749999999999))⟩, ⟨(.ofNat (nat_lit 687500000000000)), (.ofNat (nat_lit 750000000000000))⟩] :=
  above_of_check (n := 60) (by decide +kernel)

theorem sixhump_above_24 : OnBox (Above sixhumpE (.negSucc (nat_lit 3095099999999999))) [⟨(.negSucc (nat_lit 93749999999999)), (.ofNat (nat_lit 0))⟩, ⟨(.ofNat (nat_lit 687500000000000)), (.ofNat (nat_lit 750000000000000))⟩] :=
  above_of_check (n := 60) (by decide +kernel)

end Mfpml.IA
