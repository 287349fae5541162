import Verif.Lemmas.Bounds.Hartman6E

/-! Written by tools/mkbounds.py. -/

namespace Mfpml.IA

theorem hartman6_above0_2 : OnBox (AboveQ centroid0 hartman6E (.negSucc (nat_lit 3323199999999999))) [⟨(.ofNat (nat_lit 0)), (.ofNat (nat_lit 1000000000000000))⟩, ⟨(.ofNat (nat_lit 0)), (.ofNat (nat_lit 500000000000000))⟩] :=
  aboveQ_of_check (n := 60) (by decide +kernel)

theorem hartman6_above0_3 : OnBox (AboveQ centroid0 hartman6E (.negSucc (nat_lit 3323199999999999))) [⟨(.ofNat (nat_lit 0)), (.ofNat (nat_lit 1000000000000000))⟩, ⟨(.ofNat (nat_lit 500000000000000)), (.ofNat (nat_lit 1000000000000000))⟩] :=
  aboveQ_of_check (n := 60) (by decide +kernel)

end Mfpml.IA
