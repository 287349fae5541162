import Verif.Lemmas.Bounds.SixhumpE

/-! Written by tools/mkbounds.py. -/

namespace Mfpml.IA

theorem sixhump_above_41 : OnBox (Above sixhumpE (.negSucc (nat_lit 3095099999999999))) [⟨(.ofNat (nat_lit 93750000000000)), (.ofNat (nat_lit 187500000000000))⟩, ⟨(.negSucc (nat_lit 749999999999999)), (.negSucc (nat_lit 687499999999999))⟩] :=
  above_of_check (n := 60) (by decide +kernel)

theorem sixhump_above_42 : OnBox (Above sixhumpE (.negSucc (nat_lit 3095099999999999))) [⟨(.ofNat (nat_lit 0)), (.ofNat (nat_lit 187500000000000))⟩, ⟨(.negSucc (nat_lit 687499999999999)), (.negSucc (nat_lit 624999999999999))⟩] :=
  above_of_check (n := 60) (by decide +kernel)

theorem sixhump_above_43 : OnBox (Above sixhumpE (.negSucc (nat_lit 3095099999999999))) [⟨(.ofNat (nat_lit 187500000000000)), (.ofNat (nat_lit 375000000000000))⟩, ⟨(.negSucc (nat_lit 749999999999999)), (.negSucc (nat_lit 624999999999999))⟩] :=
  above_of_check (n := 60) (by decide +kernel)

theorem sixhump_above_44 : OnBox (Above sixhumpE (.negSucc (nat_lit 3095099999999999))) [⟨(.ofNat (nat_lit 0)), (.ofNat (nat_lit 375000000000000))⟩, ⟨(.negSucc (nat_lit 624999999999999)), (.negSucc (nat_lit 499999999999999))⟩] :=
  above_of_check (n := 60) (by decide +kernel)

theorem sixhump_above_45 : OnBox (Above sixhumpE (.negSucc (nat_lit 3095099999999999))) [⟨(.ofNat (nat_lit 375000000000000)), (.ofNat (nat_lit 750000000000000))⟩, ⟨(.negSucc (nat_lit 999999999999999)), (.negSucc (nat_lit 499999999999999))⟩] :=
  above_of_check (n := 60) (by decide +kernel)

theorem sixhump_above_46 : OnBox (Above sixhumpE (.negSucc (nat_lit 3095099999999999))) [⟨(.ofNat (nat_lit 0)), (.ofNat (nat_lit 750000000000000))⟩, ⟨(.negSucc (nat_lit 499999999999999)), (.ofNat (nat_lit 0))⟩] :=
  above_of_check (n := 60) (by decide +kernel)

theorem sixhump_above_47 : OnBox (Above sixhumpE (.negSucc (nat_lit 3095099999999999))) [⟨(.ofNat (nat_lit 750000000000000)), (.ofNat (nat_lit 1500000000000000))⟩, ⟨(.negSucc (nat_lit 999999999999999)), (.ofNat (nat_lit 0))⟩] :=
  above_of_check (n := 60) (by decide +kernel)

theorem sixhump_above_48 : OnBox (Above sixhumpE (.negSucc (nat_lit 3095099999999999))) [⟨(.ofNat (nat_lit 0)), (.ofNat (nat_lit 1500000000000000))⟩, ⟨(.ofNat (nat_lit 0)), (.ofNat (nat_lit 2000000000000000))⟩] :=
  above_of_check (n := 60) (by decide +kernel)

end Mfpml.IA
