import Verif.Lemmas.T3bA
import Verif.Lemmas.T3bB
import Verif.Lemmas.T3bC
import Verif.Lemmas.T3bD

/-!
# The temperature from pressure and enthalpy in subregion 3b: the certificate as a whole
-/

namespace PyX.Kron.T3b

def tree0 : CTree :=
  .sy (.sx (.sx (.sx (t0) (.sy (t1) (.sx (t2) (.sy (t3) (.sx (t4) (.sy (t5) (t6))))))) (.sy (.sx (.sy (t7) (.sx (t8)
    (.sy (.sx (t9) (t10)) (.sx (t11) (t12))))) (.sy (.sx (.sy (.sx (t13) (t14)) (t15)) (t16)) (.sx (t17) (t18))))
    (.sx (.sy (.sx (.sy (t19) (t20)) (t21)) (.sx (t22) (t23))) (.sy (t24) (t25))))) (.sy (.sx (.sx (.sy (t26) (.sx
    (t27) (t28))) (t29)) (t30)) (.sx (.sx (.sy (.sx (t31) (t32)) (t33)) (.sx (.sy (t34) (t35)) (t36))) (t37)))) (.sx
    (.sx (.sx (.sy (.sx (t38) (.sy (t39) (.sx (t40) (.sy (t41) (.sx (t42) (.sy (t43) (t44))))))) (.sx (.sx (t45) (.sy
    (t46) (.sx (.sy (t47) (.sx (t48) (.sy (t49) (.sx (t50) (t51))))) (.sy (.sy (t52) (.sx (t53) (.sy (t54) (t55))))
    (.sy (.sx (.sy (.sx (t56) (t57)) (t58)) (t59)) (t60)))))) (.sy (.sx (.sy (.sx (t61) (t62)) (.sx (.sy (t63) (.sx
    (t64) (.sy (t65) (t66)))) (.sy (.sx (t67) (t68)) (t69)))) (.sy (.sx (.sy (t70) (t71)) (t72)) (t73))) (.sx (.sy
    (.sx (.sy (.sx (.sy (t74) (t75)) (t76)) (t77)) (t78)) (t79)) (t80))))) (.sy (.sy (.sx (.sx (t81) (.sy (t82) (.sx
    (t83) (t84)))) (.sy (.sx (t85) (t86)) (t87))) (.sx (.sx (.sy (.sx (t88) (t89)) (.sx (.sy (t90) (t91)) (t92)))
    (t93)) (t94))) (.sy (.sx (.sy (t95) (t96)) (t97)) (t98)))) (.sx (.sy (t99) (t100)) (.sy (.sy (t101) (t102)) (.sy
    (.sy (t103) (t104)) (.sx (t105) (t106)))))) (.sy (.sx (.sx (.sy (.sx (t107) (.sy (t108) (t109))) (t110)) (t111))
    (t112)) (t113)))

theorem checked0 : checkR job con0 false ⟨7, 9, 7, 9, 13, 17⟩ 1 34400 tree0 27 21 20 1749 251 2000 = true :=
  (checkR_sy (checkR_sx (checkR_sx (checkR_sx c0 (checkR_sy c1 (checkR_sx c2 (checkR_sy c3 (checkR_sx c4 (checkR_sy
    c5 c6)))))) (checkR_sy (checkR_sx (checkR_sy c7 (checkR_sx c8 (checkR_sy (checkR_sx c9 c10) (checkR_sx c11
    c12)))) (checkR_sy (checkR_sx (checkR_sy (checkR_sx c13 c14) c15) c16) (checkR_sx c17 c18))) (checkR_sx
    (checkR_sy (checkR_sx (checkR_sy c19 c20) c21) (checkR_sx c22 c23)) (checkR_sy c24 c25)))) (checkR_sy (checkR_sx
    (checkR_sx (checkR_sy c26 (checkR_sx c27 c28)) c29) c30) (checkR_sx (checkR_sx (checkR_sy (checkR_sx c31 c32)
    c33) (checkR_sx (checkR_sy c34 c35) c36)) c37))) (checkR_sx (checkR_sx (checkR_sx (checkR_sy (checkR_sx c38
    (checkR_sy c39 (checkR_sx c40 (checkR_sy c41 (checkR_sx c42 (checkR_sy c43 c44)))))) (checkR_sx (checkR_sx c45
    (checkR_sy c46 (checkR_sx (checkR_sy c47 (checkR_sx c48 (checkR_sy c49 (checkR_sx c50 c51)))) (checkR_sy
    (checkR_sy c52 (checkR_sx c53 (checkR_sy c54 c55))) (checkR_sy (checkR_sx (checkR_sy (checkR_sx c56 c57) c58)
    c59) c60))))) (checkR_sy (checkR_sx (checkR_sy (checkR_sx c61 c62) (checkR_sx (checkR_sy c63 (checkR_sx c64
    (checkR_sy c65 c66))) (checkR_sy (checkR_sx c67 c68) c69))) (checkR_sy (checkR_sx (checkR_sy c70 c71) c72) c73))
    (checkR_sx (checkR_sy (checkR_sx (checkR_sy (checkR_sx (checkR_sy c74 c75) c76) c77) c78) c79) c80)))) (checkR_sy
    (checkR_sy (checkR_sx (checkR_sx c81 (checkR_sy c82 (checkR_sx c83 c84))) (checkR_sy (checkR_sx c85 c86) c87))
    (checkR_sx (checkR_sx (checkR_sy (checkR_sx c88 c89) (checkR_sx (checkR_sy c90 c91) c92)) c93) c94)) (checkR_sy
    (checkR_sx (checkR_sy c95 c96) c97) c98))) (checkR_sx (checkR_sy c99 c100) (checkR_sy (checkR_sy c101 c102)
    (checkR_sy (checkR_sy c103 c104) (checkR_sx c105 c106))))) (checkR_sy (checkR_sx (checkR_sx (checkR_sy (checkR_sx
    c107 (checkR_sy c108 c109)) c110) c111) c112) c113)))

def tree1 : CTree :=
  .sy (t114) (t115)

theorem checked1 : checkR job con1 false ⟨7, 9, 7, 9, 13, 17⟩ 1 34400 tree1 34 14 20 2039 39 2000 = true :=
  (checkR_sy c114 c115)

def tree2 : CTree :=
  .sx (.sx (.sx (.sx (.sy (t116) (.sx (t117) (t118))) (.sy (.sx (.sy (t119) (.sx (t120) (t121))) (.sy (.sx (t122)
    (t123)) (t124))) (t125))) (.sy (t126) (.sy (t127) (t128)))) (.sy (.sx (.sy (t129) (t130)) (.sy (t131) (.sy (t132)
    (t133)))) (.sx (t134) (t135)))) (.sy (.sx (.sx (.sy (t136) (.sy (t137) (t138))) (t139)) (t140)) (t141))

theorem checked2 : checkR job con2 false ⟨7, 9, 7, 9, 13, 17⟩ 1 34400 tree2 13 7 20 2039 39 2000 = true :=
  (checkR_sx (checkR_sx (checkR_sx (checkR_sx (checkR_sy c116 (checkR_sx c117 c118)) (checkR_sy (checkR_sx (checkR_sy
    c119 (checkR_sx c120 c121)) (checkR_sy (checkR_sx c122 c123) c124)) c125)) (checkR_sy c126 (checkR_sy c127
    c128))) (checkR_sy (checkR_sx (checkR_sy c129 c130) (checkR_sy c131 (checkR_sy c132 c133))) (checkR_sx c134
    c135))) (checkR_sy (checkR_sx (checkR_sx (checkR_sy c136 (checkR_sy c137 c138)) c139) c140) c141))

end PyX.Kron.T3b
