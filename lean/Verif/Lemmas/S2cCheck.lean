import Verif.Lemmas.S2cA
import Verif.Lemmas.S2cB
import Verif.Lemmas.S2cC
import Verif.Lemmas.S2cD
import Verif.Lemmas.S2cE
import Verif.Lemmas.S2cF

/-!
# Temperature from pressure and entropy in subregion 2c: the certificate as a whole
-/

namespace PyX.Kron.S2c

def tree : CTree :=
  .sy (.sx (.sy (.sx (.sx (.sx (.sx (.sy (.sx (t0) (t1)) (.sx (t2) (t3))) (.sy (t4) (t5))) (.sy (t6) (t7))) (.sy (t8)
    (t9))) (.sy (t10) (.sx (t11) (t12)))) (.sx (.sy (.sx (.sx (t13) (t14)) (.sx (t15) (t16))) (.sx (.sy (.sx (t17)
    (t18)) (.sx (.sx (t19) (t20)) (.sx (t21) (.sy (t22) (t23))))) (.sy (.sx (.sy (t24) (.sx (t25) (t26))) (t27)) (.sx
    (.sy (.sx (t28) (t29)) (t30)) (t31))))) (.sy (.sx (.sy (t32) (.sx (.sy (t33) (t34)) (t35))) (.sy (.sx (.sy (t36)
    (t37)) (.sy (.sy (t38) (t39)) (t40))) (t41))) (t42)))) (.sy (.sx (.sy (t43) (.sx (.sy (t44) (.sy (t45) (.sx (t46)
    (t47)))) (.sy (t48) (.sx (t49) (t50))))) (.sy (.sy (.sx (t51) (t52)) (t53)) (.sx (.sy (t54) (t55)) (.sy (.sy
    (t56) (t57)) (t58))))) (.sx (.sy (.sx (.sy (.sy (.sx (.sx (t59) (t60)) (t61)) (t62)) (t63)) (t64)) (t65))
    (t66)))) (.sx (.sy (.sx (.sx (.sy (.sy (.sx (.sx (t67) (t68)) (.sy (.sx (t69) (.sy (.sx (t70) (t71)) (t72))) (.sx
    (.sy (t73) (t74)) (t75)))) (.sx (.sy (.sx (t76) (.sx (t77) (.sy (t78) (t79)))) (.sx (t80) (.sx (.sx (t81) (t82))
    (t83)))) (t84))) (.sx (.sx (.sy (.sy (.sx (t85) (t86)) (t87)) (t88)) (t89)) (t90))) (t91)) (t92)) (t93)) (t94))

theorem checked : checkC job ⟨6, 8, 7, 8, 9, 13⟩ 1 25 lims tree 52 48 1 3 3 8 = true :=
  (checkC_sy (checkC_sx (checkC_sy (checkC_sx (checkC_sx (checkC_sx (checkC_sx (checkC_sy (checkC_sx c0 c1)
    (checkC_sx c2 c3)) (checkC_sy c4 c5)) (checkC_sy c6 c7)) (checkC_sy c8 c9)) (checkC_sy c10 (checkC_sx c11 c12)))
    (checkC_sx (checkC_sy (checkC_sx (checkC_sx c13 c14) (checkC_sx c15 c16)) (checkC_sx (checkC_sy (checkC_sx c17
    c18) (checkC_sx (checkC_sx c19 c20) (checkC_sx c21 (checkC_sy c22 c23)))) (checkC_sy (checkC_sx (checkC_sy c24
    (checkC_sx c25 c26)) c27) (checkC_sx (checkC_sy (checkC_sx c28 c29) c30) c31)))) (checkC_sy (checkC_sx (checkC_sy
    c32 (checkC_sx (checkC_sy c33 c34) c35)) (checkC_sy (checkC_sx (checkC_sy c36 c37) (checkC_sy (checkC_sy c38 c39)
    c40)) c41)) c42))) (checkC_sy (checkC_sx (checkC_sy c43 (checkC_sx (checkC_sy c44 (checkC_sy c45 (checkC_sx c46
    c47))) (checkC_sy c48 (checkC_sx c49 c50)))) (checkC_sy (checkC_sy (checkC_sx c51 c52) c53) (checkC_sx (checkC_sy
    c54 c55) (checkC_sy (checkC_sy c56 c57) c58)))) (checkC_sx (checkC_sy (checkC_sx (checkC_sy (checkC_sy (checkC_sx
    (checkC_sx c59 c60) c61) c62) c63) c64) c65) c66))) (checkC_sx (checkC_sy (checkC_sx (checkC_sx (checkC_sy
    (checkC_sy (checkC_sx (checkC_sx c67 c68) (checkC_sy (checkC_sx c69 (checkC_sy (checkC_sx c70 c71) c72))
    (checkC_sx (checkC_sy c73 c74) c75))) (checkC_sx (checkC_sy (checkC_sx c76 (checkC_sx c77 (checkC_sy c78 c79)))
    (checkC_sx c80 (checkC_sx (checkC_sx c81 c82) c83))) c84)) (checkC_sx (checkC_sx (checkC_sy (checkC_sy (checkC_sx
    c85 c86) c87) c88) c89) c90)) c91) c92) c93) c94))

end PyX.Kron.S2c
