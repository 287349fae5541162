import Verif.Lemmas.Bounds.SixhumpE

/-! Written by tools/mkbounds.py. -/

namespace Mfpml.IA

theorem sixhump_above_50 : OnBox (Above sixhumpE (.negSucc (nat_lit 3095099999999999))) [⟨(.ofNat (nat_lit 1500000000000000)), (.ofNat (nat_lit 2250000000000000))⟩, ⟨(.negSucc (nat_lit 1999999999999999)), (.ofNat (nat_lit 2000000000000000))⟩] :=
  above_of_check (n := 60) (by decide +kernel)

theorem sixhump_above_51 : OnBox (Above sixhumpE (.negSucc (nat_lit 3095099999999999))) [⟨(.ofNat (nat_lit 2250000000000000)), (.ofNat (nat_lit 3000000000000000))⟩, ⟨(.negSucc (nat_lit 1999999999999999)), (.ofNat (nat_lit 2000000000000000))⟩] :=
  above_of_check (n := 60) (by decide +kernel)

end Mfpml.IA
