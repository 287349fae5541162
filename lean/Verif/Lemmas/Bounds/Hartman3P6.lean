import Verif.Lemmas.Bounds.Hartman3E

/-! Written by tools/mkbounds.py. -/

namespace Mfpml.IA

theorem hartman3_above_52 : OnBox (Above hartman3E (.negSucc (nat_lit 3862791999999999))) [⟨(.ofNat (nat_lit 93750000000000)), (.ofNat (nat_lit 109375000000000))⟩, ⟨(.ofNat (nat_lit 554687500000000)), (.ofNat (nat_lit 556640625000000))⟩, ⟨(.ofNat (nat_lit 851562500000000)), (.ofNat (nat_lit 853515625000000))⟩] :=
  above_of_check (n := 60) (by decide +kernel)

theorem hartman3_above_55 : OnBox (Above hartman3E (.negSucc (nat_lit 3862791999999999))) [⟨(.ofNat (nat_lit 109375000000000)), (.ofNat (nat_lit 125000000000000))⟩, ⟨(.ofNat (nat_lit 554687500000000)), (.ofNat (nat_lit 556640625000000))⟩, ⟨(.ofNat (nat_lit 851562500000000)), (.ofNat (nat_lit 852050781250000))⟩] :=
  above_of_check (n := 60) (by decide +kernel)

theorem hartman3_above_57 : OnBox (Above hartman3E (.negSucc (nat_lit 3862791999999999))) [⟨(.ofNat (nat_lit 109375000000000)), (.ofNat (nat_lit 117187500000000))⟩, ⟨(.ofNat (nat_lit 554687500000000)), (.ofNat (nat_lit 556640625000000))⟩, ⟨(.ofNat (nat_lit 852050781250000)), (.ofNat (nat_lit 852539062500000))⟩] :=
  above_of_check (n := 60) (by decide +kernel)

end Mfpml.IA
