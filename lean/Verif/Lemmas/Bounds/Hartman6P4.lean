import Verif.Lemmas.Bounds.Hartman6E

/-! Written by tools/mkbounds.py. -/

namespace Mfpml.IA

theorem hartman6_above2_19 : OnBox (AboveQ centroid2 hartman6E (.negSucc (nat_lit 3323199999999999))) [⟨(.ofNat (nat_lit 62500000000000)), (.ofNat (nat_lit 93750000000000))⟩, ⟨(.ofNat (nat_lit 0)), (.ofNat (nat_lit 15625000000000))⟩] :=
  aboveQ_of_check (n := 60) (by decide +kernel)

theorem hartman6_above2_20 : OnBox (AboveQ centroid2 hartman6E (.negSucc (nat_lit 3323199999999999))) [⟨(.ofNat (nat_lit 62500000000000)), (.ofNat (nat_lit 93750000000000))⟩, ⟨(.ofNat (nat_lit 15625000000000)), (.ofNat (nat_lit 31250000000000))⟩] :=
  aboveQ_of_check (n := 60) (by decide +kernel)

theorem hartman6_above2_23 : OnBox (AboveQ centroid2 hartman6E (.negSucc (nat_lit 3323199999999999))) [⟨(.ofNat (nat_lit 93750000000000)), (.ofNat (nat_lit 125000000000000))⟩, ⟨(.ofNat (nat_lit 0)), (.ofNat (nat_lit 7812500000000))⟩] :=
  aboveQ_of_check (n := 60) (by decide +kernel)

end Mfpml.IA
