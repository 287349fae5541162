import Verif.Lemmas.IntervalSound

/-! Written by tools/mkbounds.py. -/

namespace Mfpml.IA

/-- The objective of `Hartman3`. -/
def hartman3E : E :=
  (.add (.scl (.negSucc (nat_lit 999999999999999)) (.expNeg (.add (.scl (.ofNat (nat_lit 3000000000000000)) (.sq (.off (.negSucc (nat_lit 368899999999999)) (.var (nat_lit 0))))) (.add (.scl (.ofNat (nat_lit 10000000000000000)) (.sq (.off (.negSucc (nat_lit 116999999999999)) (.var (nat_lit 1))))) (.scl (.ofNat (nat_lit 30000000000000000)) (.sq (.off (.negSucc (nat_lit 267299999999999)) (.var (nat_lit 2))))))))) (.add (.scl (.negSucc (nat_lit 1199999999999999)) (.expNeg (.add (.scl (.ofNat (nat_lit 100000000000000)) (.sq (.off (.negSucc (nat_lit 469899999999999)) (.var (nat_lit 0))))) (.add (.scl (.ofNat (nat_lit 10000000000000000)) (.sq (.off (.negSucc (nat_lit 438699999999999)) (.var (nat_lit 1))))) (.scl (.ofNat (nat_lit 35000000000000000)) (.sq (.off (.negSucc (nat_lit 746999999999999)) (.var (nat_lit 2))))))))) (.add (.scl (.negSucc (nat_lit 2999999999999999)) (.expNeg (.add (.scl (.ofNat (nat_lit 3000000000000000)) (.sq (.off (.negSucc (nat_lit 109099999999999)) (.var (nat_lit 0))))) (.add (.scl (.ofNat (nat_lit 10000000000000000)) (.sq (.off (.negSucc (nat_lit 873199999999999)) (.var (nat_lit 1))))) (.scl (.ofNat (nat_lit 30000000000000000)) (.sq (.off (.negSucc (nat_lit 554699999999999)) (.var (nat_lit 2))))))))) (.scl (.negSucc (nat_lit 3199999999999999)) (.expNeg (.add (.scl (.ofNat (nat_lit 100000000000000)) (.sq (.off (.negSucc (nat_lit 38149999999999)) (.var (nat_lit 0))))) (.add (.scl (.ofNat (nat_lit 10000000000000000)) (.sq (.off (.negSucc (nat_lit 574299999999999)) (.var (nat_lit 1))))) (.scl (.ofNat (nat_lit 35000000000000000)) (.sq (.off (.negSucc (nat_lit 882799999999999)) (.var (nat_lit 2))))))))))))

end Mfpml.IA
