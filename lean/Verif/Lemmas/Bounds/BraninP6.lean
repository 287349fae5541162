import Verif.Lemmas.Bounds.BraninE

/-! Written by tools/mkbounds.py. -/

namespace Mfpml.IA

theorem branin2_above_21 : OnBox (AboveOr lagrange2E cons2E braninPars (.ofNat (nat_lit 12001000000000000))) [⟨(.ofNat (nat_lit 937500000000000)), (.ofNat (nat_lit 945312500000000))⟩, ⟨(.ofNat (nat_lit 312500000000000)), (.ofNat (nat_lit 320312500000000))⟩] :=
  aboveOr_of_check (n := 60) (by decide +kernel)

theorem branin2_above_22 : OnBox (AboveOr lagrange2E cons2E braninPars (.ofNat (nat_lit 12001000000000000))) [⟨(.ofNat (nat_lit 937500000000000)), (.ofNat (nat_lit 945312500000000))⟩, ⟨(.ofNat (nat_lit 320312500000000)), (.ofNat (nat_lit 328125000000000))⟩] :=
  aboveOr_of_check (n := 60) (by decide +kernel)

theorem branin2_above_23 : OnBox (AboveOr lagrange2E cons2E braninPars (.ofNat (nat_lit 12001000000000000))) [⟨(.ofNat (nat_lit 945312500000000)), (.ofNat (nat_lit 953125000000000))⟩, ⟨(.ofNat (nat_lit 312500000000000)), (.ofNat (nat_lit 328125000000000))⟩] :=
  aboveOr_of_check (n := 60) (by decide +kernel)

theorem branin2_above_24 : OnBox (AboveOr lagrange2E cons2E braninPars (.ofNat (nat_lit 12001000000000000))) [⟨(.ofNat (nat_lit 937500000000000)), (.ofNat (nat_lit 953125000000000))⟩, ⟨(.ofNat (nat_lit 328125000000000)), (.ofNat (nat_lit 343750000000000))⟩] :=
  aboveOr_of_check (n := 60) (by decide +kernel)

theorem branin2_above_25 : OnBox (AboveOr lagrange2E cons2E braninPars (.ofNat (nat_lit 12001000000000000))) [⟨(.ofNat (nat_lit 953125000000000)), (.ofNat (nat_lit 968750000000000))⟩, ⟨(.ofNat (nat_lit 312500000000000)), (.ofNat (nat_lit 343750000000000))⟩] :=
  aboveOr_of_check (n := 60) (by decide +kernel)

theorem branin2_above_26 : OnBox (AboveOr lagrange2E cons2E braninPars (.ofNat (nat_lit 12001000000000000))) [⟨(.ofNat (nat_lit 937500000000000)), (.ofNat (nat_lit 968750000000000))⟩, ⟨(.ofNat (nat_lit 343750000000000)), (.ofNat (nat_lit 375000000000000))⟩] :=
  aboveOr_of_check (n := 60) (by decide +kernel)

theorem branin2_above_27 : OnBox (AboveOr lagrange2E cons2E braninPars (.ofNat (nat_lit 12001000000000000))) [⟨(.ofNat (nat_lit 968750000000000)), (.ofNat (nat_lit 1000000000000000))⟩, ⟨(.ofNat (nat_lit 312500000000000)), (.ofNat (nat_lit 375000000000000))⟩] :=
  aboveOr_of_check (n := 60) (by decide +kernel)

theorem branin2_above_28 : OnBox (AboveOr lagrange2E cons2E braninPars (.ofNat (nat_lit 12001000000000000))) [⟨(.ofNat (nat_lit 875000000000000)), (.ofNat (nat_lit 1000000000000000))⟩, ⟨(.ofNat (nat_lit 375000000000000)), (.ofNat (nat_lit 500000000000000))⟩] :=
  aboveOr_of_check (n := 60) (by decide +kernel)

theorem branin2_above_29 : OnBox (AboveOr lagrange2E cons2E braninPars (.ofNat (nat_lit 12001000000000000))) [⟨(.ofNat (nat_lit 500000000000000)), (.ofNat (nat_lit 1000000000000000))⟩, ⟨(.ofNat (nat_lit 500000000000000)), (.ofNat (nat_lit 1000000000000000))⟩] :=
  aboveOr_of_check (n := 60) (by decide +kernel)

end Mfpml.IA
