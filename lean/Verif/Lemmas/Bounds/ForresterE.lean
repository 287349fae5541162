import Verif.Lemmas.IntervalSound

/-! Written by tools/mkbounds.py. -/

namespace Mfpml.IA

/-- `(6 x - 2)² sin (12 x - 4)` -/
def forresterE : E :=
  (.mul (.sq (.off (.negSucc (nat_lit 1999999999999999)) (.scl (.ofNat (nat_lit 6000000000000000)) (.var (nat_lit 0))))) (.sin (.off (.negSucc (nat_lit 3999999999999999)) (.scl (.ofNat (nat_lit 12000000000000000)) (.var (nat_lit 0))))))

/-- `-(6 x - 2)² sin (12 x - 4)` -/
def forresterNegE : E :=
  (.scl (.negSucc (nat_lit 999999999999999)) forresterE)

end Mfpml.IA
