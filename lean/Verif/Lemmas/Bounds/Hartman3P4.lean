import Verif.Lemmas.Bounds.Hartman3E

/-! Written by tools/mkbounds.py. -/

namespace Mfpml.IA

theorem hartman3_above_32 : OnBox (Above hartman3E (.negSucc (nat_lit 3862791999999999))) [⟨(.ofNat (nat_lit 125000000000000)), (.ofNat (nat_lit 187500000000000))⟩, ⟨(.ofNat (nat_lit 546875000000000)), (.ofNat (nat_lit 562500000000000))⟩, ⟨(.ofNat (nat_lit 843750000000000)), (.ofNat (nat_lit 851562500000000))⟩] :=
  above_of_check (n := 60) (by decide +kernel)

theorem hartman3_above_33 : OnBox (Above hartman3E (.negSucc (nat_lit 3862791999999999))) [⟨(.ofNat (nat_lit 187500000000000)), (.ofNat (nat_lit 250000000000000))⟩, ⟨(.ofNat (nat_lit 546875000000000)), (.ofNat (nat_lit 562500000000000))⟩, ⟨(.ofNat (nat_lit 843750000000000)), (.ofNat (nat_lit 851562500000000))⟩] :=
  above_of_check (n := 60) (by decide +kernel)

theorem hartman3_above_36 : OnBox (Above hartman3E (.negSucc (nat_lit 3862791999999999))) [⟨(.ofNat (nat_lit 0)), (.ofNat (nat_lit 62500000000000))⟩, ⟨(.ofNat (nat_lit 546875000000000)), (.ofNat (nat_lit 562500000000000))⟩, ⟨(.ofNat (nat_lit 851562500000000)), (.ofNat (nat_lit 859375000000000))⟩] :=
  above_of_check (n := 60) (by decide +kernel)

theorem hartman3_above_40 : OnBox (Above hartman3E (.negSucc (nat_lit 3862791999999999))) [⟨(.ofNat (nat_lit 62500000000000)), (.ofNat (nat_lit 125000000000000))⟩, ⟨(.ofNat (nat_lit 546875000000000)), (.ofNat (nat_lit 550781250000000))⟩, ⟨(.ofNat (nat_lit 851562500000000)), (.ofNat (nat_lit 855468750000000))⟩] :=
  above_of_check (n := 60) (by decide +kernel)

theorem hartman3_above_42 : OnBox (Above hartman3E (.negSucc (nat_lit 3862791999999999))) [⟨(.ofNat (nat_lit 62500000000000)), (.ofNat (nat_lit 93750000000000))⟩, ⟨(.ofNat (nat_lit 550781250000000)), (.ofNat (nat_lit 554687500000000))⟩, ⟨(.ofNat (nat_lit 851562500000000)), (.ofNat (nat_lit 855468750000000))⟩] :=
  above_of_check (n := 60) (by decide +kernel)

end Mfpml.IA
