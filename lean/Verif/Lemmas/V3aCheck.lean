import Verif.Lemmas.V3aA
import Verif.Lemmas.V3aB
import Verif.Lemmas.V3aC
import Verif.Lemmas.V3aD
import Verif.Lemmas.V3aE

/-!
# The volume from pressure and enthalpy in subregion 3a: the certificate as a whole
-/

namespace PyX.Kron.V3a

def tree0 : CTree :=
  .sy (.sx (t0) (.sy (t1) (.sx (.sx (t2) (.sx (.sy (t3) (.sy (t4) (t5))) (t6))) (t7)))) (.sx (.sy (.sx (t8) (t9))
    (.sx (t10) (.sx (.sy (t11) (.sy (t12) (.sx (t13) (.sx (t14) (t15))))) (.sy (.sy (.sx (t16) (.sx (.sy (t17) (t18))
    (t19))) (.sx (.sx (t20) (.sy (t21) (t22))) (t23))) (.sy (.sx (.sy (.sx (t24) (t25)) (t26)) (t27)) (t28)))))) (.sy
    (.sx (.sx (.sy (.sx (t29) (t30)) (.sx (t31) (t32))) (.sy (.sx (t33) (.sy (t34) (t35))) (.sx (t36) (t37)))) (.sx
    (.sx (.sy (t38) (.sx (t39) (t40))) (t41)) (t42))) (.sx (.sx (.sy (.sy (t43) (t44)) (.sy (.sx (t45) (t46)) (.sx
    (t47) (t48)))) (.sy (.sx (t49) (t50)) (.sx (.sy (t51) (t52)) (t53)))) (.sx (.sx (.sy (t54) (.sy (t55) (t56)))
    (.sy (.sx (t57) (t58)) (.sx (t59) (t60)))) (.sx (.sy (t61) (.sx (t62) (t63))) (t64))))))

theorem checked0 : checkR job con0 true ⟨7, 9, 7, 9, 13, 17⟩ 1 9016 tree0 27 21 20 1749 251 2000 = true :=
  (checkR_sy (checkR_sx c0 (checkR_sy c1 (checkR_sx (checkR_sx c2 (checkR_sx (checkR_sy c3 (checkR_sy c4 c5)) c6))
    c7))) (checkR_sx (checkR_sy (checkR_sx c8 c9) (checkR_sx c10 (checkR_sx (checkR_sy c11 (checkR_sy c12 (checkR_sx
    c13 (checkR_sx c14 c15)))) (checkR_sy (checkR_sy (checkR_sx c16 (checkR_sx (checkR_sy c17 c18) c19)) (checkR_sx
    (checkR_sx c20 (checkR_sy c21 c22)) c23)) (checkR_sy (checkR_sx (checkR_sy (checkR_sx c24 c25) c26) c27) c28)))))
    (checkR_sy (checkR_sx (checkR_sx (checkR_sy (checkR_sx c29 c30) (checkR_sx c31 c32)) (checkR_sy (checkR_sx c33
    (checkR_sy c34 c35)) (checkR_sx c36 c37))) (checkR_sx (checkR_sx (checkR_sy c38 (checkR_sx c39 c40)) c41) c42))
    (checkR_sx (checkR_sx (checkR_sy (checkR_sy c43 c44) (checkR_sy (checkR_sx c45 c46) (checkR_sx c47 c48)))
    (checkR_sy (checkR_sx c49 c50) (checkR_sx (checkR_sy c51 c52) c53))) (checkR_sx (checkR_sx (checkR_sy c54
    (checkR_sy c55 c56)) (checkR_sy (checkR_sx c57 c58) (checkR_sx c59 c60))) (checkR_sx (checkR_sy c61 (checkR_sx
    c62 c63)) c64))))))

def tree1 : CTree :=
  .sy (.sx (.sx (.sx (t65) (.sy (.sx (.sy (t66) (t67)) (t68)) (t69))) (.sx (.sy (t70) (.sy (t71) (t72))) (.sy (t73)
    (t74)))) (.sx (.sx (.sx (t75) (t76)) (.sx (t77) (t78))) (.sx (.sx (t79) (t80)) (t81)))) (.sx (.sx (t82) (.sx
    (t83) (.sy (.sx (t84) (t85)) (t86)))) (.sx (.sx (.sx (.sy (t87) (t88)) (t89)) (.sx (t90) (t91))) (.sx (.sx (t92)
    (t93)) (.sx (t94) (t95)))))

theorem checked1 : checkR job con1 true ⟨7, 9, 7, 9, 13, 17⟩ 1 9016 tree1 34 14 20 2039 39 2000 = true :=
  (checkR_sy (checkR_sx (checkR_sx (checkR_sx c65 (checkR_sy (checkR_sx (checkR_sy c66 c67) c68) c69)) (checkR_sx
    (checkR_sy c70 (checkR_sy c71 c72)) (checkR_sy c73 c74))) (checkR_sx (checkR_sx (checkR_sx c75 c76) (checkR_sx
    c77 c78)) (checkR_sx (checkR_sx c79 c80) c81))) (checkR_sx (checkR_sx c82 (checkR_sx c83 (checkR_sy (checkR_sx
    c84 c85) c86))) (checkR_sx (checkR_sx (checkR_sx (checkR_sy c87 c88) c89) (checkR_sx c90 c91)) (checkR_sx
    (checkR_sx c92 c93) (checkR_sx c94 c95)))))

def tree2 : CTree :=
  t96

theorem checked2 : checkR job con2 true ⟨7, 9, 7, 9, 13, 17⟩ 1 9016 tree2 13 7 20 2039 39 2000 = true :=
  c96

end PyX.Kron.V3a
