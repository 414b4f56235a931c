import Verif.Lemmas.T3aA
import Verif.Lemmas.T3aB
import Verif.Lemmas.T3aC
import Verif.Lemmas.T3aD

/-!
# The temperature from pressure and enthalpy in subregion 3a: the certificate as a whole
-/

namespace PyX.Kron.T3a

def tree0 : CTree :=
  .sy (.sx (t0) (.sy (t1) (.sx (.sx (t2) (.sx (.sy (t3) (t4)) (t5))) (t6)))) (.sx (.sx (t7) (.sx (.sy (t8) (.sy (t9)
    (.sx (t10) (.sy (t11) (t12))))) (.sy (t13) (.sy (.sy (t14) (.sx (t15) (t16))) (.sy (.sx (.sx (t17) (t18)) (t19))
    (t20)))))) (.sy (.sx (.sx (.sy (.sx (t21) (t22)) (.sx (t23) (t24))) (.sy (.sx (t25) (t26)) (.sx (t27) (t28))))
    (.sx (.sx (.sy (.sx (t29) (t30)) (.sx (t31) (t32))) (t33)) (t34))) (.sx (.sx (.sy (.sy (t35) (t36)) (.sx (.sy
    (t37) (t38)) (t39))) (.sy (.sx (t40) (t41)) (.sx (.sy (t42) (t43)) (.sy (t44) (t45))))) (.sx (.sx (.sy (t46) (.sy
    (t47) (t48))) (.sy (.sx (t49) (t50)) (.sx (t51) (t52)))) (.sx (.sy (t53) (.sx (t54) (t55))) (t56))))))

theorem checked0 : checkR job con0 false ⟨7, 9, 7, 9, 13, 17⟩ 1 30400 tree0 27 21 20 1749 251 2000 = true :=
  (checkR_sy (checkR_sx c0 (checkR_sy c1 (checkR_sx (checkR_sx c2 (checkR_sx (checkR_sy c3 c4) c5)) c6))) (checkR_sx
    (checkR_sx c7 (checkR_sx (checkR_sy c8 (checkR_sy c9 (checkR_sx c10 (checkR_sy c11 c12)))) (checkR_sy c13
    (checkR_sy (checkR_sy c14 (checkR_sx c15 c16)) (checkR_sy (checkR_sx (checkR_sx c17 c18) c19) c20))))) (checkR_sy
    (checkR_sx (checkR_sx (checkR_sy (checkR_sx c21 c22) (checkR_sx c23 c24)) (checkR_sy (checkR_sx c25 c26)
    (checkR_sx c27 c28))) (checkR_sx (checkR_sx (checkR_sy (checkR_sx c29 c30) (checkR_sx c31 c32)) c33) c34))
    (checkR_sx (checkR_sx (checkR_sy (checkR_sy c35 c36) (checkR_sx (checkR_sy c37 c38) c39)) (checkR_sy (checkR_sx
    c40 c41) (checkR_sx (checkR_sy c42 c43) (checkR_sy c44 c45)))) (checkR_sx (checkR_sx (checkR_sy c46 (checkR_sy
    c47 c48)) (checkR_sy (checkR_sx c49 c50) (checkR_sx c51 c52))) (checkR_sx (checkR_sy c53 (checkR_sx c54 c55))
    c56))))))

def tree1 : CTree :=
  .sy (.sx (.sx (.sx (t57) (.sy (t58) (t59))) (.sx (.sy (t60) (t61)) (.sy (.sx (t62) (t63)) (.sx (t64) (t65))))) (.sx
    (.sx (.sx (t66) (t67)) (.sx (t68) (t69))) (.sx (.sx (t70) (t71)) (t72)))) (.sx (.sx (t73) (.sx (t74) (.sy (.sx
    (t75) (.sy (t76) (t77))) (t78)))) (.sx (.sx (.sx (t79) (t80)) (.sx (t81) (t82))) (.sx (.sx (t83) (t84)) (t85))))

theorem checked1 : checkR job con1 false ⟨7, 9, 7, 9, 13, 17⟩ 1 30400 tree1 34 14 20 2039 39 2000 = true :=
  (checkR_sy (checkR_sx (checkR_sx (checkR_sx c57 (checkR_sy c58 c59)) (checkR_sx (checkR_sy c60 c61) (checkR_sy
    (checkR_sx c62 c63) (checkR_sx c64 c65)))) (checkR_sx (checkR_sx (checkR_sx c66 c67) (checkR_sx c68 c69))
    (checkR_sx (checkR_sx c70 c71) c72))) (checkR_sx (checkR_sx c73 (checkR_sx c74 (checkR_sy (checkR_sx c75
    (checkR_sy c76 c77)) c78))) (checkR_sx (checkR_sx (checkR_sx c79 c80) (checkR_sx c81 c82)) (checkR_sx (checkR_sx
    c83 c84) c85))))

def tree2 : CTree :=
  t86

theorem checked2 : checkR job con2 false ⟨7, 9, 7, 9, 13, 17⟩ 1 30400 tree2 13 7 20 2039 39 2000 = true :=
  c86

end PyX.Kron.T3a
