import Verif.Lemmas.Bounds.Hartman6E

/-! Written by tools/mkbounds.py. -/

namespace Mfpml.IA

theorem hartman6_above2_11 : OnBox (AboveQ centroid2 hartman6E (.negSucc (nat_lit 3323199999999999))) [⟨(.ofNat (nat_lit 0)), (.ofNat (nat_lit 31250000000000))⟩, ⟨(.ofNat (nat_lit 0)), (.ofNat (nat_lit 31250000000000))⟩] :=
  aboveQ_of_check (n := 60) (by decide +kernel)

theorem hartman6_above2_12 : OnBox (AboveQ centroid2 hartman6E (.negSucc (nat_lit 3323199999999999))) [⟨(.ofNat (nat_lit 31250000000000)), (.ofNat (nat_lit 62500000000000))⟩, ⟨(.ofNat (nat_lit 0)), (.ofNat (nat_lit 31250000000000))⟩] :=
  aboveQ_of_check (n := 60) (by decide +kernel)

theorem hartman6_above2_13 : OnBox (AboveQ centroid2 hartman6E (.negSucc (nat_lit 3323199999999999))) [⟨(.ofNat (nat_lit 0)), (.ofNat (nat_lit 62500000000000))⟩, ⟨(.ofNat (nat_lit 31250000000000)), (.ofNat (nat_lit 62500000000000))⟩] :=
  aboveQ_of_check (n := 60) (by decide +kernel)

theorem hartman6_above2_14 : OnBox (AboveQ centroid2 hartman6E (.negSucc (nat_lit 3323199999999999))) [⟨(.ofNat (nat_lit 0)), (.ofNat (nat_lit 62500000000000))⟩, ⟨(.ofNat (nat_lit 62500000000000)), (.ofNat (nat_lit 125000000000000))⟩] :=
  aboveQ_of_check (n := 60) (by decide +kernel)

end Mfpml.IA
