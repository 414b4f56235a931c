import Verif.Lemmas.S2bA
import Verif.Lemmas.S2bB
import Verif.Lemmas.S2bC
import Verif.Lemmas.S2bD
import Verif.Lemmas.S2bE

/-!
# Temperature from pressure and entropy in subregion 2b: the certificate as a whole
-/

namespace PyX.Kron.S2b

def tree : CTree :=
  .sy (.sx (.sy (.sx (.sx (.sx (.sx (t0) (t1)) (t2)) (.sx (t3) (t4))) (.sy (t5) (.sx (t6) (.sy (t7) (t8))))) (.sx
    (.sy (.sx (.sx (t9) (t10)) (.sx (t11) (.sy (t12) (.sy (t13) (t14))))) (.sx (.sx (t15) (.sy (t16) (.sx (t17) (.sy
    (t18) (.sx (t19) (.sx (t20) (.sy (t21) (t22)))))))) (.sy (.sx (.sy (t23) (.sx (t24) (.sy (t25) (t26)))) (.sy (.sx
    (t27) (t28)) (t29))) (.sx (.sy (.sx (.sx (t30) (.sy (t31) (t32))) (t33)) (.sx (.sy (.sx (t34) (t35)) (t36))
    (t37))) (t38))))) (.sy (.sx (.sy (t39) (.sx (.sy (t40) (t41)) (t42))) (.sy (.sx (t43) (t44)) (t45))) (t46))))
    (.sy (.sx (.sy (t47) (.sy (t48) (.sx (t49) (t50)))) (.sy (.sy (t51) (t52)) (.sx (t53) (t54)))) (t55))) (.sx (.sy
    (.sx (.sx (.sy (.sy (.sx (t56) (.sy (.sx (.sx (t57) (t58)) (.sy (.sx (t59) (t60)) (t61))) (.sx (.sy (t62) (t63))
    (t64)))) (.sx (.sx (t65) (.sy (t66) (t67))) (t68))) (.sx (.sx (.sy (.sy (t69) (t70)) (t71)) (t72)) (t73))) (t74))
    (t75)) (t76)) (t77))

theorem checked : checkC job ⟨6, 8, 7, 8, 9, 13⟩ 3 100 lims tree 52 48 1 3 3 8 = true :=
  (checkC_sy (checkC_sx (checkC_sy (checkC_sx (checkC_sx (checkC_sx (checkC_sx c0 c1) c2) (checkC_sx c3 c4))
    (checkC_sy c5 (checkC_sx c6 (checkC_sy c7 c8)))) (checkC_sx (checkC_sy (checkC_sx (checkC_sx c9 c10) (checkC_sx
    c11 (checkC_sy c12 (checkC_sy c13 c14)))) (checkC_sx (checkC_sx c15 (checkC_sy c16 (checkC_sx c17 (checkC_sy c18
    (checkC_sx c19 (checkC_sx c20 (checkC_sy c21 c22))))))) (checkC_sy (checkC_sx (checkC_sy c23 (checkC_sx c24
    (checkC_sy c25 c26))) (checkC_sy (checkC_sx c27 c28) c29)) (checkC_sx (checkC_sy (checkC_sx (checkC_sx c30
    (checkC_sy c31 c32)) c33) (checkC_sx (checkC_sy (checkC_sx c34 c35) c36) c37)) c38)))) (checkC_sy (checkC_sx
    (checkC_sy c39 (checkC_sx (checkC_sy c40 c41) c42)) (checkC_sy (checkC_sx c43 c44) c45)) c46))) (checkC_sy
    (checkC_sx (checkC_sy c47 (checkC_sy c48 (checkC_sx c49 c50))) (checkC_sy (checkC_sy c51 c52) (checkC_sx c53
    c54))) c55)) (checkC_sx (checkC_sy (checkC_sx (checkC_sx (checkC_sy (checkC_sy (checkC_sx c56 (checkC_sy
    (checkC_sx (checkC_sx c57 c58) (checkC_sy (checkC_sx c59 c60) c61)) (checkC_sx (checkC_sy c62 c63) c64)))
    (checkC_sx (checkC_sx c65 (checkC_sy c66 c67)) c68)) (checkC_sx (checkC_sx (checkC_sy (checkC_sy c69 c70) c71)
    c72) c73)) c74) c75) c76) c77))

end PyX.Kron.S2b
