import Verif.Lemmas.Bounds.Hartman3E

/-! Written by tools/mkbounds.py. -/

namespace Mfpml.IA

theorem hartman3_above_2 : OnBox (Above hartman3E (.negSucc (nat_lit 3862791999999999))) [⟨(.ofNat (nat_lit 0)), (.ofNat (nat_lit 1000000000000000))⟩, ⟨(.ofNat (nat_lit 0)), (.ofNat (nat_lit 1000000000000000))⟩, ⟨(.ofNat (nat_lit 0)), (.ofNat (nat_lit 500000000000000))⟩] :=
  above_of_check (n := 60) (by decide +kernel)

theorem hartman3_above_4 : OnBox (Above hartman3E (.negSucc (nat_lit 3862791999999999))) [⟨(.ofNat (nat_lit 0)), (.ofNat (nat_lit 1000000000000000))⟩, ⟨(.ofNat (nat_lit 0)), (.ofNat (nat_lit 500000000000000))⟩, ⟨(.ofNat (nat_lit 500000000000000)), (.ofNat (nat_lit 1000000000000000))⟩] :=
  above_of_check (n := 60) (by decide +kernel)

theorem hartman3_above_6 : OnBox (Above hartman3E (.negSucc (nat_lit 3862791999999999))) [⟨(.ofNat (nat_lit 0)), (.ofNat (nat_lit 1000000000000000))⟩, ⟨(.ofNat (nat_lit 500000000000000)), (.ofNat (nat_lit 1000000000000000))⟩, ⟨(.ofNat (nat_lit 500000000000000)), (.ofNat (nat_lit 750000000000000))⟩] :=
  above_of_check (n := 60) (by decide +kernel)

theorem hartman3_above_12 : OnBox (Above hartman3E (.negSucc (nat_lit 3862791999999999))) [⟨(.ofNat (nat_lit 0)), (.ofNat (nat_lit 500000000000000))⟩, ⟨(.ofNat (nat_lit 500000000000000)), (.ofNat (nat_lit 625000000000000))⟩, ⟨(.ofNat (nat_lit 750000000000000)), (.ofNat (nat_lit 812500000000000))⟩] :=
  above_of_check (n := 60) (by decide +kernel)

theorem hartman3_above_15 : OnBox (Above hartman3E (.negSucc (nat_lit 3862791999999999))) [⟨(.ofNat (nat_lit 0)), (.ofNat (nat_lit 500000000000000))⟩, ⟨(.ofNat (nat_lit 500000000000000)), (.ofNat (nat_lit 562500000000000))⟩, ⟨(.ofNat (nat_lit 812500000000000)), (.ofNat (nat_lit 843750000000000))⟩] :=
  above_of_check (n := 60) (by decide +kernel)

end Mfpml.IA
