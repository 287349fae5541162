import Verif.Lemmas.Bounds.SixhumpE

/-! Written by tools/mkbounds.py. -/

namespace Mfpml.IA

theorem sixhump_above_4 : OnBox (Above sixhumpE (.negSucc (nat_lit 3095099999999999))) [⟨(.negSucc (nat_lit 2999999999999999)), (.negSucc (nat_lit 2249999999999999))⟩, ⟨(.negSucc (nat_lit 1999999999999999)), (.ofNat (nat_lit 2000000000000000))⟩] :=
  above_of_check (n := 60) (by decide +kernel)

theorem sixhump_above_5 : OnBox (Above sixhumpE (.negSucc (nat_lit 3095099999999999))) [⟨(.negSucc (nat_lit 2249999999999999)), (.negSucc (nat_lit 1499999999999999))⟩, ⟨(.negSucc (nat_lit 1999999999999999)), (.ofNat (nat_lit 2000000000000000))⟩] :=
  above_of_check (n := 60) (by decide +kernel)

theorem sixhump_above_7 : OnBox (Above sixhumpE (.negSucc (nat_lit 3095099999999999))) [⟨(.negSucc (nat_lit 1499999999999999)), (.ofNat (nat_lit 0))⟩, ⟨(.negSucc (nat_lit 1999999999999999)), (.ofNat (nat_lit 0))⟩] :=
  above_of_check (n := 60) (by decide +kernel)

theorem sixhump_above_10 : OnBox (Above sixhumpE (.negSucc (nat_lit 3095099999999999))) [⟨(.negSucc (nat_lit 1499999999999999)), (.negSucc (nat_lit 749999999999999))⟩, ⟨(.ofNat (nat_lit 0)), (.ofNat (nat_lit 1000000000000000))⟩] :=
  above_of_check (n := 60) (by decide +kernel)

theorem sixhump_above_12 : OnBox (Above sixhumpE (.negSucc (nat_lit 3095099999999999))) [⟨(.negSucc (nat_lit 749999999999999)), (.ofNat (nat_lit 0))⟩, ⟨(.ofNat (nat_lit 0)), (.ofNat (nat_lit 500000000000000))⟩] :=
  above_of_check (n := 60) (by decide +kernel)

end Mfpml.IA
