import Verif.Lemmas.Bounds.Hartman3E

/-! Written by tools/mkbounds.py. -/

namespace Mfpml.IA

theorem hartman3_above_86 : OnBox (Above hartman3E (.negSucc (nat_lit 3862791999999999))) [⟨(.ofNat (nat_lit 0)), (.ofNat (nat_lit 250000000000000))⟩, ⟨(.ofNat (nat_lit 562500000000000)), (.ofNat (nat_lit 578125000000000))⟩, ⟨(.ofNat (nat_lit 843750000000000)), (.ofNat (nat_lit 851562500000000))⟩] :=
  above_of_check (n := 60) (by decide +kernel)

theorem hartman3_above_87 : OnBox (Above hartman3E (.negSucc (nat_lit 3862791999999999))) [⟨(.ofNat (nat_lit 0)), (.ofNat (nat_lit 250000000000000))⟩, ⟨(.ofNat (nat_lit 562500000000000)), (.ofNat (nat_lit 578125000000000))⟩, ⟨(.ofNat (nat_lit 851562500000000)), (.ofNat (nat_lit 859375000000000))⟩] :=
  above_of_check (n := 60) (by decide +kernel)

theorem hartman3_above_88 : OnBox (Above hartman3E (.negSucc (nat_lit 3862791999999999))) [⟨(.ofNat (nat_lit 0)), (.ofNat (nat_lit 250000000000000))⟩, ⟨(.ofNat (nat_lit 578125000000000)), (.ofNat (nat_lit 593750000000000))⟩, ⟨(.ofNat (nat_lit 843750000000000)), (.ofNat (nat_lit 859375000000000))⟩] :=
  above_of_check (n := 60) (by decide +kernel)

theorem hartman3_above_89 : OnBox (Above hartman3E (.negSucc (nat_lit 3862791999999999))) [⟨(.ofNat (nat_lit 0)), (.ofNat (nat_lit 250000000000000))⟩, ⟨(.ofNat (nat_lit 562500000000000)), (.ofNat (nat_lit 593750000000000))⟩, ⟨(.ofNat (nat_lit 859375000000000)), (.ofNat (nat_lit 875000000000000))⟩] :=
  above_of_check (n := 60) (by decide +kernel)

theorem hartman3_above_90 : OnBox (Above hartman3E (.negSucc (nat_lit 3862791999999999))) [⟨(.ofNat (nat_lit 250000000000000)), (.ofNat (nat_lit 500000000000000))⟩, ⟨(.ofNat (nat_lit 562500000000000)), (.ofNat (nat_lit 593750000000000))⟩, ⟨(.ofNat (nat_lit 843750000000000)), (.ofNat (nat_lit 875000000000000))⟩] :=
  above_of_check (n := 60) (by decide +kernel)

end Mfpml.IA
