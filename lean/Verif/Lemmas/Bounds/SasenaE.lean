import Verif.Lemmas.IntervalSound

/-! Written by tools/mkbounds.py. -/

namespace Mfpml.IA

/-- The objective of `Sasena`. -/
def sasenaE : E :=
  (.off (.ofNat (nat_lit 2000000000000000)) (.add (.scl (.ofNat (nat_lit 10000000000000)) (.sq (.add (.var (nat_lit 1)) (.scl (.negSucc (nat_lit 999999999999999)) (.sq (.var (nat_lit 0))))))) (.add (.sq (.off (.negSucc (nat_lit 999999999999999)) (.var (nat_lit 0)))) (.add (.scl (.ofNat (nat_lit 2000000000000000)) (.sq (.off (.negSucc (nat_lit 1999999999999999)) (.var (nat_lit 1))))) (.scl (.ofNat (nat_lit 7000000000000000)) (.mul (.sin (.scl (.ofNat (nat_lit 500000000000000)) (.var (nat_lit 0)))) (.sin (.scl (.ofNat (nat_lit 700000000000000)) (.mul (.var (nat_lit 0)) (.var (nat_lit 1)))))))))))

/-- The objective of `Sasena`, negated. -/
def sasenaNegE : E :=
  (.scl (.negSucc (nat_lit 999999999999999)) sasenaE)

end Mfpml.IA
