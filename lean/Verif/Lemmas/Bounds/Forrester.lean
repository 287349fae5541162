import Verif.Lemmas.Bounds.ForresterP1

/-! Written by tools/mkbounds.py. -/

namespace Mfpml.IA

theorem forrester_above : OnBox (Above forresterE (.negSucc (nat_lit 6020740999999999))) [⟨(.ofNat (nat_lit 0)), (.ofNat (nat_lit 1000000000000000))⟩] := forrester_above_1

theorem forrester_point_low : OnBox (Above forresterE (.negSucc (nat_lit 6020740099999999))) [⟨(.ofNat (nat_lit 757248757841856)), (.ofNat (nat_lit 757248757841856))⟩] :=
  above_of_check (n := 2) (by decide +kernel)

theorem forrester_point_high : OnBox (Above forresterNegE (.ofNat (nat_lit 6020740050000000))) [⟨(.ofNat (nat_lit 757248757841856)), (.ofNat (nat_lit 757248757841856))⟩] :=
  above_of_check (n := 2) (by decide +kernel)

end Mfpml.IA
