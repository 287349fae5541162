import Verif.Lemmas.IntervalSound

/-! Written by tools/mkbounds.py. -/

namespace Mfpml.IA

/-- Enclosures of `5.1 / (4 π²)`, `5 / π`, `10 (1 - 1 / (8 π))` and `1 / 3`. -/
def braninPars : List I := [⟨(.ofNat (nat_lit 129184509000000)), (.ofNat (nat_lit 129184510000000))⟩, ⟨(.ofNat (nat_lit 1591549430000000)), (.ofNat (nat_lit 1591549431000000))⟩, ⟨(.ofNat (nat_lit 9602112641000000)), (.ofNat (nat_lit 9602112643000000))⟩, ⟨(.ofNat (nat_lit 333333333333333)), (.ofNat (nat_lit 333333333333334))⟩]

/-- The objective of `Branin_1` and `Branin_2`. -/
def braninE : E :=
  (.off (.ofNat (nat_lit 10000000000000000)) (.add (.sq (.off (.negSucc (nat_lit 5999999999999999)) (.add (.scl (.ofNat (nat_lit 15000000000000000)) (.var (nat_lit 1))) (.add (.scl (.negSucc (nat_lit 999999999999999)) (.mul (.par (nat_lit 0)) (.sq (.off (.negSucc (nat_lit 4999999999999999)) (.scl (.ofNat (nat_lit 15000000000000000)) (.var (nat_lit 0))))))) (.mul (.par (nat_lit 1)) (.off (.negSucc (nat_lit 4999999999999999)) (.scl (.ofNat (nat_lit 15000000000000000)) (.var (nat_lit 0))))))))) (.add (.mul (.par (nat_lit 2)) (.cos (.off (.negSucc (nat_lit 4999999999999999)) (.scl (.ofNat (nat_lit 15000000000000000)) (.var (nat_lit 0)))))) (.scl (.ofNat (nat_lit 5000000000000000)) (.var (nat_lit 0))))))

/-- The objective, negated. -/
def braninNegE : E :=
  (.scl (.negSucc (nat_lit 999999999999999)) braninE)

/-- The constraint of `Branin_1`. -/
def cons1E : E :=
  (.off (.ofNat (nat_lit 200000000000000)) (.scl (.negSucc (nat_lit 999999999999999)) (.mul (.var (nat_lit 0)) (.var (nat_lit 1)))))

/-- The constraint of `Branin_2`. -/
def cons2E : E :=
  (.off (.ofNat (nat_lit 6000000000000000)) (.scl (.negSucc (nat_lit 999999999999999)) (.add (.mul (.off (.ofNat (nat_lit 4000000000000000)) (.add (.scl (.negSucc (nat_lit 2099999999999999)) (.sq (.off (.negSucc (nat_lit 999999999999999)) (.scl (.ofNat (nat_lit 2000000000000000)) (.var (nat_lit 0)))))) (.mul (.par (nat_lit 3)) (.sq (.sq (.off (.negSucc (nat_lit 999999999999999)) (.scl (.ofNat (nat_lit 2000000000000000)) (.var (nat_lit 0))))))))) (.sq (.off (.negSucc (nat_lit 999999999999999)) (.scl (.ofNat (nat_lit 2000000000000000)) (.var (nat_lit 0)))))) (.add (.mul (.off (.negSucc (nat_lit 999999999999999)) (.scl (.ofNat (nat_lit 2000000000000000)) (.var (nat_lit 0)))) (.off (.negSucc (nat_lit 999999999999999)) (.scl (.ofNat (nat_lit 2000000000000000)) (.var (nat_lit 1))))) (.add (.mul (.off (.negSucc (nat_lit 3999999999999999)) (.scl (.ofNat (nat_lit 4000000000000000)) (.sq (.off (.negSucc (nat_lit 999999999999999)) (.scl (.ofNat (nat_lit 2000000000000000)) (.var (nat_lit 1))))))) (.sq (.off (.negSucc (nat_lit 999999999999999)) (.scl (.ofNat (nat_lit 2000000000000000)) (.var (nat_lit 1)))))) (.add (.scl (.ofNat (nat_lit 3000000000000000)) (.sin (.off (.ofNat (nat_lit 6000000000000000)) (.scl (.negSucc (nat_lit 5999999999999999)) (.off (.negSucc (nat_lit 999999999999999)) (.scl (.ofNat (nat_lit 2000000000000000)) (.var (nat_lit 0)))))))) (.scl (.ofNat (nat_lit 3000000000000000)) (.sin (.off (.ofNat (nat_lit 6000000000000000)) (.scl (.negSucc (nat_lit 5999999999999999)) (.off (.negSucc (nat_lit 999999999999999)) (.scl (.ofNat (nat_lit 2000000000000000)) (.var (nat_lit 1))))))))))))))

/-- The objective plus four times the constraint of `Branin_2`. -/
def lagrange2E : E :=
  (.add braninE (.scl (.ofNat (nat_lit 4000000000000000)) cons2E))

end Mfpml.IA
