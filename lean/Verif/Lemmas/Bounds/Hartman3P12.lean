import Verif.Lemmas.Bounds.Hartman3E

/-! Written by tools/mkbounds.py. -/

namespace Mfpml.IA

theorem hartman3_above_91 : OnBox (Above hartman3E (.negSucc (nat_lit 3862791999999999))) [⟨(.ofNat (nat_lit 0)), (.ofNat (nat_lit 500000000000000))⟩, ⟨(.ofNat (nat_lit 593750000000000)), (.ofNat (nat_lit 625000000000000))⟩, ⟨(.ofNat (nat_lit 843750000000000)), (.ofNat (nat_lit 875000000000000))⟩] :=
  above_of_check (n := 60) (by decide +kernel)

theorem hartman3_above_92 : OnBox (Above hartman3E (.negSucc (nat_lit 3862791999999999))) [⟨(.ofNat (nat_lit 0)), (.ofNat (nat_lit 500000000000000))⟩, ⟨(.ofNat (nat_lit 625000000000000)), (.ofNat (nat_lit 750000000000000))⟩, ⟨(.ofNat (nat_lit 750000000000000)), (.ofNat (nat_lit 875000000000000))⟩] :=
  above_of_check (n := 60) (by decide +kernel)

theorem hartman3_above_93 : OnBox (Above hartman3E (.negSucc (nat_lit 3862791999999999))) [⟨(.ofNat (nat_lit 500000000000000)), (.ofNat (nat_lit 1000000000000000))⟩, ⟨(.ofNat (nat_lit 500000000000000)), (.ofNat (nat_lit 750000000000000))⟩, ⟨(.ofNat (nat_lit 750000000000000)), (.ofNat (nat_lit 875000000000000))⟩] :=
  above_of_check (n := 60) (by decide +kernel)

theorem hartman3_above_94 : OnBox (Above hartman3E (.negSucc (nat_lit 3862791999999999))) [⟨(.ofNat (nat_lit 0)), (.ofNat (nat_lit 1000000000000000))⟩, ⟨(.ofNat (nat_lit 500000000000000)), (.ofNat (nat_lit 750000000000000))⟩, ⟨(.ofNat (nat_lit 875000000000000)), (.ofNat (nat_lit 1000000000000000))⟩] :=
  above_of_check (n := 60) (by decide +kernel)

theorem hartman3_above_95 : OnBox (Above hartman3E (.negSucc (nat_lit 3862791999999999))) [⟨(.ofNat (nat_lit 0)), (.ofNat (nat_lit 1000000000000000))⟩, ⟨(.ofNat (nat_lit 750000000000000)), (.ofNat (nat_lit 1000000000000000))⟩, ⟨(.ofNat (nat_lit 750000000000000)), (.ofNat (nat_lit 1000000000000000))⟩] :=
  above_of_check (n := 60) (by decide +kernel)

end Mfpml.IA
