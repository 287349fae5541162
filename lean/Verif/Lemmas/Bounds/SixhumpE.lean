import Verif.Lemmas.IntervalSound

/-! Written by tools/mkbounds.py. -/

namespace Mfpml.IA

/-- Three times the objective of `Sixhump`. -/
def sixhumpE : E :=
  (.add (.mul (.off (.ofNat (nat_lit 12000000000000000)) (.add (.scl (.negSucc (nat_lit 6299999999999999)) (.sq (.var (nat_lit 0)))) (.sq (.sq (.var (nat_lit 0)))))) (.sq (.var (nat_lit 0)))) (.add (.scl (.ofNat (nat_lit 3000000000000000)) (.mul (.var (nat_lit 0)) (.var (nat_lit 1)))) (.mul (.off (.negSucc (nat_lit 11999999999999999)) (.scl (.ofNat (nat_lit 12000000000000000)) (.sq (.var (nat_lit 1))))) (.sq (.var (nat_lit 1))))))

end Mfpml.IA
