import Verif.Lemmas.Bounds.BraninE

/-! Written by tools/mkbounds.py. -/

namespace Mfpml.IA

theorem branin2_above_2 : OnBox (AboveOr lagrange2E cons2E braninPars (.ofNat (nat_lit 12001000000000000))) [⟨(.ofNat (nat_lit 0)), (.ofNat (nat_lit 500000000000000))⟩, ⟨(.ofNat (nat_lit 0)), (.ofNat (nat_lit 1000000000000000))⟩] :=
  aboveOr_of_check (n := 60) (by decide +kernel)

theorem branin2_above_5 : OnBox (AboveOr lagrange2E cons2E braninPars (.ofNat (nat_lit 12001000000000000))) [⟨(.ofNat (nat_lit 500000000000000)), (.ofNat (nat_lit 750000000000000))⟩, ⟨(.ofNat (nat_lit 0)), (.ofNat (nat_lit 500000000000000))⟩] :=
  aboveOr_of_check (n := 60) (by decide +kernel)

theorem branin2_above_7 : OnBox (AboveOr lagrange2E cons2E braninPars (.ofNat (nat_lit 12001000000000000))) [⟨(.ofNat (nat_lit 750000000000000)), (.ofNat (nat_lit 1000000000000000))⟩, ⟨(.ofNat (nat_lit 0)), (.ofNat (nat_lit 250000000000000))⟩] :=
  aboveOr_of_check (n := 60) (by decide +kernel)

theorem branin2_above_9 : OnBox (AboveOr lagrange2E cons2E braninPars (.ofNat (nat_lit 12001000000000000))) [⟨(.ofNat (nat_lit 750000000000000)), (.ofNat (nat_lit 875000000000000))⟩, ⟨(.ofNat (nat_lit 250000000000000)), (.ofNat (nat_lit 500000000000000))⟩] :=
  aboveOr_of_check (n := 60) (by decide +kernel)

theorem branin2_above_12 : OnBox (AboveOr lagrange2E cons2E braninPars (.ofNat (nat_lit 12001000000000000))) [⟨(.ofNat (nat_lit 875000000000000)), (.ofNat (nat_lit 937500000000000))⟩, ⟨(.ofNat (nat_lit 250000000000000)), (.ofNat (nat_lit 375000000000000))⟩] :=
  aboveOr_of_check (n := 60) (by decide +kernel)

theorem branin2_above_14 : OnBox (AboveOr lagrange2E cons2E braninPars (.ofNat (nat_lit 12001000000000000))) [⟨(.ofNat (nat_lit 937500000000000)), (.ofNat (nat_lit 1000000000000000))⟩, ⟨(.ofNat (nat_lit 250000000000000)), (.ofNat (nat_lit 312500000000000))⟩] :=
  aboveOr_of_check (n := 60) (by decide +kernel)

end Mfpml.IA
