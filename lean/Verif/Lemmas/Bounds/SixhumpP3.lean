import Verif.Lemmas.Bounds.SixhumpE

/-! Written by tools/mkbounds.py. -/

namespace Mfpml.IA

theorem sixhump_above_25 : OnBox (Above sixhumpE (.negSucc (nat_lit 3095099999999999))) [⟨(.negSucc (nat_lit 374999999999999)), (.ofNat (nat_lit 0))⟩, ⟨(.ofNat (nat_lit 750000000000000)), (.ofNat (nat_lit 1000000000000000))⟩] :=
  above_of_check (n := 60) (by decide +kernel)

theorem sixhump_above_26 : OnBox (Above sixhumpE (.negSucc (nat_lit 3095099999999999))) [⟨(.negSucc (nat_lit 1499999999999999)), (.ofNat (nat_lit 0))⟩, ⟨(.ofNat (nat_lit 1000000000000000)), (.ofNat (nat_lit 2000000000000000))⟩] :=
  above_of_check (n := 60) (by decide +kernel)

theorem sixhump_above_30 : OnBox (Above sixhumpE (.negSucc (nat_lit 3095099999999999))) [⟨(.ofNat (nat_lit 0)), (.ofNat (nat_lit 1500000000000000))⟩, ⟨(.negSucc (nat_lit 1999999999999999)), (.negSucc (nat_lit 999999999999999))⟩] :=
  above_of_check (n := 60) (by decide +kernel)

theorem sixhump_above_35 : OnBox (Above sixhumpE (.negSucc (nat_lit 3095099999999999))) [⟨(.ofNat (nat_lit 0)), (.ofNat (nat_lit 375000000000000))⟩, ⟨(.negSucc (nat_lit 999999999999999)), (.negSucc (nat_lit 749999999999999))⟩] :=
  above_of_check (n := 60) (by decide +kernel)

theorem sixhump_above_40 : OnBox (Above sixhumpE (.negSucc (nat_lit 3095099999999999))) [⟨(.ofNat (nat_lit 0)), (.ofNat (nat_lit 93750000000000))⟩, ⟨(.negSucc (nat_lit 749999999999999)), (.negSucc (nat_lit 687499999999999))⟩] :=
  above_of_check (n := 60) (by decide +kernel)

end Mfpml.IA
