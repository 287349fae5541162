import Verif.Lemmas.IntervalSound

/-! Written by tools/mkbounds.py. -/

namespace Mfpml.IA

/-- The sum of the first three terms of `Hartman6`, negated. -/
def hartman6E : E :=
  (.add (.scl (.negSucc (nat_lit 999999999999999)) (.expNeg (.add (.scl (.ofNat (nat_lit 10000000000000000)) (.sq (.off (.negSucc (nat_lit 131199999999999)) (.var (nat_lit 0))))) (.add (.scl (.ofNat (nat_lit 3000000000000000)) (.sq (.off (.negSucc (nat_lit 169599999999999)) (.var (nat_lit 1))))) (.add (.scl (.ofNat (nat_lit 17000000000000000)) (.sq (.off (.negSucc (nat_lit 556899999999999)) (.var (nat_lit 2))))) (.add (.scl (.ofNat (nat_lit 3500000000000000)) (.sq (.off (.negSucc (nat_lit 12399999999999)) (.var (nat_lit 3))))) (.add (.scl (.ofNat (nat_lit 1700000000000000)) (.sq (.off (.negSucc (nat_lit 828299999999999)) (.var (nat_lit 4))))) (.scl (.ofNat (nat_lit 8000000000000000)) (.sq (.off (.negSucc (nat_lit 588599999999999)) (.var (nat_lit 5)))))))))))) (.add (.scl (.negSucc (nat_lit 1199999999999999)) (.expNeg (.add (.scl (.ofNat (nat_lit 50000000000000)) (.sq (.off (.negSucc (nat_lit 232899999999999)) (.var (nat_lit 0))))) (.add (.scl (.ofNat (nat_lit 10000000000000000)) (.sq (.off (.negSucc (nat_lit 413499999999999)) (.var (nat_lit 1))))) (.add (.scl (.ofNat (nat_lit 17000000000000000)) (.sq (.off (.negSucc (nat_lit 830699999999999)) (.var (nat_lit 2))))) (.add (.scl (.ofNat (nat_lit 100000000000000)) (.sq (.off (.negSucc (nat_lit 373599999999999)) (.var (nat_lit 3))))) (.add (.scl (.ofNat (nat_lit 8000000000000000)) (.sq (.off (.negSucc (nat_lit 100399999999999)) (.var (nat_lit 4))))) (.scl (.ofNat (nat_lit 14000000000000000)) (.sq (.off (.negSucc (nat_lit 999099999999999)) (.var (nat_lit 5)))))))))))) (.scl (.negSucc (nat_lit 2999999999999999)) (.expNeg (.add (.scl (.ofNat (nat_lit 3000000000000000)) (.sq (.off (.negSucc (nat_lit 234799999999999)) (.var (nat_lit 0))))) (.add (.scl (.ofNat (nat_lit 3500000000000000)) (.sq (.off (.negSucc (nat_lit 145099999999999)) (.var (nat_lit 1))))) (.add (.scl (.ofNat (nat_lit 1700000000000000)) (.sq (.off (.negSucc (nat_lit 352199999999999)) (.var (nat_lit 2))))) (.add (.scl (.ofNat (nat_lit 10000000000000000)) (.sq (.off (.negSucc (nat_lit 288299999999999)) (.var (nat_lit 3))))) (.add (.scl (.ofNat (nat_lit 17000000000000000)) (.sq (.off (.negSucc (nat_lit 304699999999999)) (.var (nat_lit 4))))) (.scl (.ofNat (nat_lit 8000000000000000)) (.sq (.off (.negSucc (nat_lit 664999999999999)) (.var (nat_lit 5))))))))))))))

/-- The weighted means of the centres for weights whose largest, number 0, is 1. -/
def centroid0 : List (E × E) :=
  [((.off (.ofNat (nat_lit 1312000000000000)) (.add (.scl (.ofNat (nat_lit 11645000000000)) (.var (nat_lit 0))) (.scl (.ofNat (nat_lit 704400000000000)) (.var (nat_lit 1))))), (.off (.ofNat (nat_lit 10000000000000000)) (.add (.scl (.ofNat (nat_lit 50000000000000)) (.var (nat_lit 0))) (.scl (.ofNat (nat_lit 3000000000000000)) (.var (nat_lit 1)))))),
   ((.off (.ofNat (nat_lit 508800000000000)) (.add (.scl (.ofNat (nat_lit 4135000000000000)) (.var (nat_lit 0))) (.scl (.ofNat (nat_lit 507850000000000)) (.var (nat_lit 1))))), (.off (.ofNat (nat_lit 3000000000000000)) (.add (.scl (.ofNat (nat_lit 10000000000000000)) (.var (nat_lit 0))) (.scl (.ofNat (nat_lit 3500000000000000)) (.var (nat_lit 1)))))),
   ((.off (.ofNat (nat_lit 9467300000000000)) (.add (.scl (.ofNat (nat_lit 14121900000000000)) (.var (nat_lit 0))) (.scl (.ofNat (nat_lit 598740000000000)) (.var (nat_lit 1))))), (.off (.ofNat (nat_lit 17000000000000000)) (.add (.scl (.ofNat (nat_lit 17000000000000000)) (.var (nat_lit 0))) (.scl (.ofNat (nat_lit 1700000000000000)) (.var (nat_lit 1)))))),
   ((.off (.ofNat (nat_lit 43400000000000)) (.add (.scl (.ofNat (nat_lit 37360000000000)) (.var (nat_lit 0))) (.scl (.ofNat (nat_lit 2883000000000000)) (.var (nat_lit 1))))), (.off (.ofNat (nat_lit 3500000000000000)) (.add (.scl (.ofNat (nat_lit 100000000000000)) (.var (nat_lit 0))) (.scl (.ofNat (nat_lit 10000000000000000)) (.var (nat_lit 1)))))),
   ((.off (.ofNat (nat_lit 1408110000000000)) (.add (.scl (.ofNat (nat_lit 803200000000000)) (.var (nat_lit 0))) (.scl (.ofNat (nat_lit 5179900000000000)) (.var (nat_lit 1))))), (.off (.ofNat (nat_lit 1700000000000000)) (.add (.scl (.ofNat (nat_lit 8000000000000000)) (.var (nat_lit 0))) (.scl (.ofNat (nat_lit 17000000000000000)) (.var (nat_lit 1)))))),
   ((.off (.ofNat (nat_lit 4708800000000000)) (.add (.scl (.ofNat (nat_lit 13987400000000000)) (.var (nat_lit 0))) (.scl (.ofNat (nat_lit 5320000000000000)) (.var (nat_lit 1))))), (.off (.ofNat (nat_lit 8000000000000000)) (.add (.scl (.ofNat (nat_lit 14000000000000000)) (.var (nat_lit 0))) (.scl (.ofNat (nat_lit 8000000000000000)) (.var (nat_lit 1))))))]

/-- The weighted means of the centres for weights whose largest, number 1, is 1. -/
def centroid1 : List (E × E) :=
  [((.off (.ofNat (nat_lit 11645000000000)) (.add (.scl (.ofNat (nat_lit 1312000000000000)) (.var (nat_lit 0))) (.scl (.ofNat (nat_lit 704400000000000)) (.var (nat_lit 1))))), (.off (.ofNat (nat_lit 50000000000000)) (.add (.scl (.ofNat (nat_lit 10000000000000000)) (.var (nat_lit 0))) (.scl (.ofNat (nat_lit 3000000000000000)) (.var (nat_lit 1)))))),
   ((.off (.ofNat (nat_lit 4135000000000000)) (.add (.scl (.ofNat (nat_lit 508800000000000)) (.var (nat_lit 0))) (.scl (.ofNat (nat_lit 507850000000000)) (.var (nat_lit 1))))), (.off (.ofNat (nat_lit 10000000000000000)) (.add (.scl (.ofNat (nat_lit 3000000000000000)) (.var (nat_lit 0))) (.scl (.ofNat (nat_lit 3500000000000000)) (.var (nat_lit 1)))))),
   ((.off (.ofNat (nat_lit 14121900000000000)) (.add (.scl (.ofNat (nat_lit 9467300000000000)) (.var (nat_lit 0))) (.scl (.ofNat (nat_lit 598740000000000)) (.var (nat_lit 1))))), (.off (.ofNat (nat_lit 17000000000000000)) (.add (.scl (.ofNat (nat_lit 17000000000000000)) (.var (nat_lit 0))) (.scl (.ofNat (nat_lit 1700000000000000)) (.var (nat_lit 1)))))),
   ((.off (.ofNat (nat_lit 37360000000000)) (.add (.scl (.ofNat (nat_lit 43400000000000)) (.var (nat_lit 0))) (.scl (.ofNat (nat_lit 2883000000000000)) (.var (nat_lit 1))))), (.off (.ofNat (nat_lit 100000000000000)) (.add (.scl (.ofNat (nat_lit 3500000000000000)) (.var (nat_lit 0))) (.scl (.ofNat (nat_lit 10000000000000000)) (.var (nat_lit 1)))))),
   ((.off (.ofNat (nat_lit 803200000000000)) (.add (.scl (.ofNat (nat_lit 1408110000000000)) (.var (nat_lit 0))) (.scl (.ofNat (nat_lit 5179900000000000)) (.var (nat_lit 1))))), (.off (.ofNat (nat_lit 8000000000000000)) (.add (.scl (.ofNat (nat_lit 1700000000000000)) (.var (nat_lit 0))) (.scl (.ofNat (nat_lit 17000000000000000)) (.var (nat_lit 1)))))),
   ((.off (.ofNat (nat_lit 13987400000000000)) (.add (.scl (.ofNat (nat_lit 4708800000000000)) (.var (nat_lit 0))) (.scl (.ofNat (nat_lit 5320000000000000)) (.var (nat_lit 1))))), (.off (.ofNat (nat_lit 14000000000000000)) (.add (.scl (.ofNat (nat_lit 8000000000000000)) (.var (nat_lit 0))) (.scl (.ofNat (nat_lit 8000000000000000)) (.var (nat_lit 1))))))]

/-- The weighted means of the centres for weights whose largest, number 2, is 1. -/
def centroid2 : List (E × E) :=
  [((.off (.ofNat (nat_lit 704400000000000)) (.add (.scl (.ofNat (nat_lit 1312000000000000)) (.var (nat_lit 0))) (.scl (.ofNat (nat_lit 11645000000000)) (.var (nat_lit 1))))), (.off (.ofNat (nat_lit 3000000000000000)) (.add (.scl (.ofNat (nat_lit 10000000000000000)) (.var (nat_lit 0))) (.scl (.ofNat (nat_lit 50000000000000)) (.var (nat_lit 1)))))),
   ((.off (.ofNat (nat_lit 507850000000000)) (.add (.scl (.ofNat (nat_lit 508800000000000)) (.var (nat_lit 0))) (.scl (.ofNat (nat_lit 4135000000000000)) (.var (nat_lit 1))))), (.off (.ofNat (nat_lit 3500000000000000)) (.add (.scl (.ofNat (nat_lit 3000000000000000)) (.var (nat_lit 0))) (.scl (.ofNat (nat_lit 10000000000000000)) (.var (nat_lit 1)))))),
   ((.off (.ofNat (nat_lit 598740000000000)) (.add (.scl (.ofNat (nat_lit 9467300000000000)) (.var (nat_lit 0))) (.scl (.ofNat (nat_lit 14121900000000000)) (.var (nat_lit 1))))), (.off (.ofNat (nat_lit 1700000000000000)) (.add (.scl (.ofNat (nat_lit 17000000000000000)) (.var (nat_lit 0))) (.scl (.ofNat (nat_lit 17000000000000000)) (.var (nat_lit 1)))))),
   ((.off (.ofNat (nat_lit 2883000000000000)) (.add (.scl (.ofNat (nat_lit 43400000000000)) (.var (nat_lit 0))) (.scl (.ofNat (nat_lit 37360000000000)) (.var (nat_lit 1))))), (.off (.ofNat (nat_lit 10000000000000000)) (.add (.scl (.ofNat (nat_lit 3500000000000000)) (.var (nat_lit 0))) (.scl (.ofNat (nat_lit 100000000000000)) (.var (nat_lit 1)))))),
   ((.off (.ofNat (nat_lit 5179900000000000)) (.add (.scl (.ofNat (nat_lit 1408110000000000)) (.var (nat_lit 0))) (.scl (.ofNat (nat_lit 803200000000000)) (.var (nat_lit 1))))), (.off (.ofNat (nat_lit 17000000000000000)) (.add (.scl (.ofNat (nat_lit 1700000000000000)) (.var (nat_lit 0))) (.scl (.ofNat (nat_lit 8000000000000000)) (.var (nat_lit 1)))))),
   ((.off (.ofNat (nat_lit 5320000000000000)) (.add (.scl (.ofNat (nat_lit 4708800000000000)) (.var (nat_lit 0))) (.scl (.ofNat (nat_lit 13987400000000000)) (.var (nat_lit 1))))), (.off (.ofNat (nat_lit 8000000000000000)) (.add (.scl (.ofNat (nat_lit 8000000000000000)) (.var (nat_lit 0))) (.scl (.ofNat (nat_lit 14000000000000000)) (.var (nat_lit 1))))))]

/-- The sum of the four terms of `Hartman6`, negated. -/
def hartman6FullE : E :=
  (.add (.scl (.negSucc (nat_lit 999999999999999)) (.expNeg (.add (.scl (.ofNat (nat_lit 10000000000000000)) (.sq (.off (.negSucc (nat_lit 131199999999999)) (.var (nat_lit 0))))) (.add (.scl (.ofNat (nat_lit 3000000000000000)) (.sq (.off (.negSucc (nat_lit 169599999999999)) (.var (nat_lit 1))))) (.add (.scl (.ofNat (nat_lit 17000000000000000)) (.sq (.off (.negSucc (nat_lit 556899999999999)) (.var (nat_lit 2))))) (.add (.scl (.ofNat (nat_lit 3500000000000000)) (.sq (.off (.negSucc (nat_lit 12399999999999)) (.var (nat_lit 3))))) (.add (.scl (.ofNat (nat_lit 1700000000000000)) (.sq (.off (.negSucc (nat_lit 828299999999999)) (.var (nat_lit 4))))) (.scl (.ofNat (nat_lit 8000000000000000)) (.sq (.off (.negSucc (nat_lit 588599999999999)) (.var (nat_lit 5)))))))))))) (.add (.scl (.negSucc (nat_lit 1199999999999999)) (.expNeg (.add (.scl (.ofNat (nat_lit 50000000000000)) (.sq (.off (.negSucc (nat_lit 232899999999999)) (.var (nat_lit 0))))) (.add (.scl (.ofNat (nat_lit 10000000000000000)) (.sq (.off (.negSucc (nat_lit 413499999999999)) (.var (nat_lit 1))))) (.add (.scl (.ofNat (nat_lit 17000000000000000)) (.sq (.off (.negSucc (nat_lit 830699999999999)) (.var (nat_lit 2))))) (.add (.scl (.ofNat (nat_lit 100000000000000)) (.sq (.off (.negSucc (nat_lit 373599999999999)) (.var (nat_lit 3))))) (.add (.scl (.ofNat (nat_lit 8000000000000000)) (.sq (.off (.negSucc (nat_lit 100399999999999)) (.var (nat_lit 4))))) (.scl (.ofNat (nat_lit 14000000000000000)) (.sq (.off (.negSucc (nat_lit 999099999999999)) (.var (nat_lit 5)))))))))))) (.add (.scl (.negSucc (nat_lit 2999999999999999)) (.expNeg (.add (.scl (.ofNat (nat_lit 3000000000000000)) (.sq (.off (.negSucc (nat_lit 234799999999999)) (.var (nat_lit 0))))) (.add (.scl (.ofNat (nat_lit 3500000000000000)) (.sq (.off (.negSucc (nat_lit 145099999999999)) (.var (nat_lit 1))))) (.add (.scl (.ofNat (nat_lit 1700000000000000)) (.sq (.off (.negSucc (nat_lit 352199999999999)) (.var (nat_lit 2))))) (.add (.scl (.ofNat (nat_lit 10000000000000000)) (.sq (.off (.negSucc (nat_lit 288299999999999)) (.var (nat_lit 3))))) (.add (.scl (.ofNat (nat_lit 17000000000000000)) (.sq (.off (.negSucc (nat_lit 304699999999999)) (.var (nat_lit 4))))) (.scl (.ofNat (nat_lit 8000000000000000)) (.sq (.off (.negSucc (nat_lit 664999999999999)) (.var (nat_lit 5)))))))))))) (.scl (.negSucc (nat_lit 3199999999999999)) (.expNeg (.add (.scl (.ofNat (nat_lit 17000000000000000)) (.sq (.off (.negSucc (nat_lit 404699999999999)) (.var (nat_lit 0))))) (.add (.scl (.ofNat (nat_lit 8000000000000000)) (.sq (.off (.negSucc (nat_lit 882799999999999)) (.var (nat_lit 1))))) (.add (.scl (.ofNat (nat_lit 50000000000000)) (.sq (.off (.negSucc (nat_lit 873199999999999)) (.var (nat_lit 2))))) (.add (.scl (.ofNat (nat_lit 10000000000000000)) (.sq (.off (.negSucc (nat_lit 574299999999999)) (.var (nat_lit 3))))) (.add (.scl (.ofNat (nat_lit 100000000000000)) (.sq (.off (.negSucc (nat_lit 109099999999999)) (.var (nat_lit 4))))) (.scl (.ofNat (nat_lit 14000000000000000)) (.sq (.off (.negSucc (nat_lit 38099999999999)) (.var (nat_lit 5)))))))))))))))

/-- The sum of the four terms of `Hartman6`. -/
def hartman6NegE : E :=
  (.scl (.negSucc (nat_lit 999999999999999)) hartman6FullE)

end Mfpml.IA
