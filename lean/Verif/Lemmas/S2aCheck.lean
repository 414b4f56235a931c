import Verif.Lemmas.S2aA
import Verif.Lemmas.S2aB
import Verif.Lemmas.S2aC
import Verif.Lemmas.S2aD
import Verif.Lemmas.S2aE
import Verif.Lemmas.S2aF

/-!
# Temperature from pressure and entropy in subregion 2a: the certificate as a whole
-/

namespace PyX.Kron.S2a

def tree : CTree :=
  .sy (.sx (.sy (.sx (.sy (.sx (.sx (.sx (t0) (t1)) (t2)) (.sx (t3) (t4))) (.sx (.sx (t5) (t6)) (t7))) (.sy (.sx (t8)
    (t9)) (t10))) (.sx (.sx (.sx (t11) (t12)) (.sx (t13) (t14))) (.sx (t15) (.sy (t16) (t17))))) (.sy (.sx (.sy (.sx
    (t18) (t19)) (t20)) (.sy (.sy (t21) (t22)) (.sx (t23) (t24)))) (.sx (.sy (.sx (t25) (t26)) (.sy (.sx (t27) (.sx
    (t28) (t29))) (.sx (.sx (t30) (t31)) (t32)))) (.sy (.sx (.sy (t33) (t34)) (.sy (t35) (.sy (t36) (.sx (t37) (.sy
    (.sx (t38) (.sx (t39) (.sy (.sx (t40) (.sy (t41) (.sy (t42) (t43)))) (t44)))) (t45)))))) (.sy (.sx (.sx (t46)
    (t47)) (t48)) (t49)))))) (.sx (.sy (.sx (.sy (.sx (t50) (t51)) (.sx (t52) (.sx (t53) (t54)))) (.sy (.sx (.sx
    (t55) (t56)) (.sy (t57) (t58))) (t59))) (.sx (.sy (.sx (.sx (t60) (.sx (t61) (t62))) (t63)) (.sx (.sy (.sx (.sx
    (t64) (t65)) (t66)) (t67)) (t68))) (t69))) (t70))

theorem checked : checkC job ⟨6, 8, 8, 10, 9, 13⟩ 3 100 lims tree 51 41 64 3 3 4 = true :=
  (checkC_sy (checkC_sx (checkC_sy (checkC_sx (checkC_sy (checkC_sx (checkC_sx (checkC_sx c0 c1) c2) (checkC_sx c3
    c4)) (checkC_sx (checkC_sx c5 c6) c7)) (checkC_sy (checkC_sx c8 c9) c10)) (checkC_sx (checkC_sx (checkC_sx c11
    c12) (checkC_sx c13 c14)) (checkC_sx c15 (checkC_sy c16 c17)))) (checkC_sy (checkC_sx (checkC_sy (checkC_sx c18
    c19) c20) (checkC_sy (checkC_sy c21 c22) (checkC_sx c23 c24))) (checkC_sx (checkC_sy (checkC_sx c25 c26)
    (checkC_sy (checkC_sx c27 (checkC_sx c28 c29)) (checkC_sx (checkC_sx c30 c31) c32))) (checkC_sy (checkC_sx
    (checkC_sy c33 c34) (checkC_sy c35 (checkC_sy c36 (checkC_sx c37 (checkC_sy (checkC_sx c38 (checkC_sx c39
    (checkC_sy (checkC_sx c40 (checkC_sy c41 (checkC_sy c42 c43))) c44))) c45))))) (checkC_sy (checkC_sx (checkC_sx
    c46 c47) c48) c49))))) (checkC_sx (checkC_sy (checkC_sx (checkC_sy (checkC_sx c50 c51) (checkC_sx c52 (checkC_sx
    c53 c54))) (checkC_sy (checkC_sx (checkC_sx c55 c56) (checkC_sy c57 c58)) c59)) (checkC_sx (checkC_sy (checkC_sx
    (checkC_sx c60 (checkC_sx c61 c62)) c63) (checkC_sx (checkC_sy (checkC_sx (checkC_sx c64 c65) c66) c67) c68))
    c69)) c70))

end PyX.Kron.S2a
