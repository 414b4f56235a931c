import Verif.Lemmas.V3bA
import Verif.Lemmas.V3bB
import Verif.Lemmas.V3bC
import Verif.Lemmas.V3bD
import Verif.Lemmas.V3bE
import Verif.Lemmas.V3bF

/-!
# The volume from pressure and enthalpy in subregion 3b: the certificate as a whole
-/

namespace PyX.Kron.V3b

def tree0 : CTree :=
  .sy (.sx (.sx (.sx (t0) (.sy (t1) (.sy (t2) (t3)))) (.sy (.sx (.sy (t4) (.sx (t5) (.sy (.sx (t6) (t7)) (.sx (t8)
    (t9))))) (.sy (.sx (.sy (.sx (t10) (t11)) (.sx (.sx (t12) (t13)) (t14))) (t15)) (.sx (t16) (t17)))) (.sx (.sy
    (.sx (.sy (t18) (t19)) (t20)) (.sx (t21) (t22))) (.sy (.sx (t23) (t24)) (.sx (t25) (t26)))))) (.sy (.sx (.sx (.sy
    (t27) (t28)) (t29)) (t30)) (.sx (.sx (.sy (.sx (t31) (t32)) (t33)) (.sx (.sy (t34) (t35)) (t36))) (t37)))) (.sx
    (.sx (.sx (.sy (.sx (t38) (.sy (t39) (.sx (t40) (.sx (t41) (.sy (t42) (t43)))))) (.sx (.sx (t44) (.sy (t45) (.sx
    (.sy (t46) (.sx (t47) (.sy (t48) (.sx (.sy (t49) (t50)) (t51))))) (.sy (.sx (.sy (t52) (t53)) (.sy (t54) (.sx
    (.sy (t55) (t56)) (t57)))) (.sx (.sy (.sx (.sy (t58) (t59)) (t60)) (t61)) (.sy (t62) (t63))))))) (.sy (.sx (.sx
    (.sy (t64) (.sx (t65) (.sy (t66) (.sy (t67) (t68))))) (.sy (t69) (.sy (.sx (t70) (t71)) (t72)))) (.sy (.sx (.sy
    (t73) (t74)) (t75)) (t76))) (.sx (.sy (.sx (.sy (.sx (.sx (t77) (t78)) (t79)) (t80)) (t81)) (t82)) (.sy (.sx
    (t83) (.sy (t84) (t85))) (t86)))))) (.sy (.sy (.sx (t87) (t88)) (.sx (.sy (.sx (t89) (t90)) (t91)) (t92))) (.sy
    (.sx (.sy (t93) (t94)) (t95)) (.sy (.sx (.sx (t96) (t97)) (t98)) (.sx (.sx (.sy (t99) (.sx (t100) (t101))) (.sy
    (t102) (t103))) (t104)))))) (.sx (.sy (.sy (.sy (t105) (t106)) (.sy (.sx (t107) (t108)) (t109))) (.sy (.sy (t110)
    (.sx (.sy (t111) (t112)) (t113))) (.sy (t114) (.sx (t115) (t116))))) (.sy (.sy (t117) (.sy (t118) (.sx (t119)
    (t120)))) (.sy (.sx (t121) (.sy (t122) (t123))) (t124))))) (.sy (.sx (.sx (.sy (.sx (t125) (t126)) (.sx (t127)
    (t128))) (t129)) (t130)) (t131)))

theorem checked0 : checkR job con0 true ⟨7, 9, 7, 9, 13, 17⟩ 1 28336 tree0 27 21 20 1749 251 2000 = true :=
  (checkR_sy (checkR_sx (checkR_sx (checkR_sx c0 (checkR_sy c1 (checkR_sy c2 c3))) (checkR_sy (checkR_sx (checkR_sy
    c4 (checkR_sx c5 (checkR_sy (checkR_sx c6 c7) (checkR_sx c8 c9)))) (checkR_sy (checkR_sx (checkR_sy (checkR_sx
    c10 c11) (checkR_sx (checkR_sx c12 c13) c14)) c15) (checkR_sx c16 c17))) (checkR_sx (checkR_sy (checkR_sx
    (checkR_sy c18 c19) c20) (checkR_sx c21 c22)) (checkR_sy (checkR_sx c23 c24) (checkR_sx c25 c26))))) (checkR_sy
    (checkR_sx (checkR_sx (checkR_sy c27 c28) c29) c30) (checkR_sx (checkR_sx (checkR_sy (checkR_sx c31 c32) c33)
    (checkR_sx (checkR_sy c34 c35) c36)) c37))) (checkR_sx (checkR_sx (checkR_sx (checkR_sy (checkR_sx c38 (checkR_sy
    c39 (checkR_sx c40 (checkR_sx c41 (checkR_sy c42 c43))))) (checkR_sx (checkR_sx c44 (checkR_sy c45 (checkR_sx
    (checkR_sy c46 (checkR_sx c47 (checkR_sy c48 (checkR_sx (checkR_sy c49 c50) c51)))) (checkR_sy (checkR_sx
    (checkR_sy c52 c53) (checkR_sy c54 (checkR_sx (checkR_sy c55 c56) c57))) (checkR_sx (checkR_sy (checkR_sx
    (checkR_sy c58 c59) c60) c61) (checkR_sy c62 c63)))))) (checkR_sy (checkR_sx (checkR_sx (checkR_sy c64 (checkR_sx
    c65 (checkR_sy c66 (checkR_sy c67 c68)))) (checkR_sy c69 (checkR_sy (checkR_sx c70 c71) c72))) (checkR_sy
    (checkR_sx (checkR_sy c73 c74) c75) c76)) (checkR_sx (checkR_sy (checkR_sx (checkR_sy (checkR_sx (checkR_sx c77
    c78) c79) c80) c81) c82) (checkR_sy (checkR_sx c83 (checkR_sy c84 c85)) c86))))) (checkR_sy (checkR_sy (checkR_sx
    c87 c88) (checkR_sx (checkR_sy (checkR_sx c89 c90) c91) c92)) (checkR_sy (checkR_sx (checkR_sy c93 c94) c95)
    (checkR_sy (checkR_sx (checkR_sx c96 c97) c98) (checkR_sx (checkR_sx (checkR_sy c99 (checkR_sx c100 c101))
    (checkR_sy c102 c103)) c104))))) (checkR_sx (checkR_sy (checkR_sy (checkR_sy c105 c106) (checkR_sy (checkR_sx
    c107 c108) c109)) (checkR_sy (checkR_sy c110 (checkR_sx (checkR_sy c111 c112) c113)) (checkR_sy c114 (checkR_sx
    c115 c116)))) (checkR_sy (checkR_sy c117 (checkR_sy c118 (checkR_sx c119 c120))) (checkR_sy (checkR_sx c121
    (checkR_sy c122 c123)) c124)))) (checkR_sy (checkR_sx (checkR_sx (checkR_sy (checkR_sx c125 c126) (checkR_sx c127
    c128)) c129) c130) c131)))

def tree1 : CTree :=
  .sy (t132) (t133)

theorem checked1 : checkR job con1 true ⟨7, 9, 7, 9, 13, 17⟩ 1 28336 tree1 34 14 20 2039 39 2000 = true :=
  (checkR_sy c132 c133)

def tree2 : CTree :=
  .sx (.sx (.sx (.sx (.sy (t134) (t135)) (.sy (.sx (.sy (t136) (.sx (t137) (t138))) (.sy (.sx (.sy (t139) (t140))
    (t141)) (t142))) (.sy (t143) (t144)))) (.sy (.sx (t145) (t146)) (.sx (.sy (t147) (.sy (t148) (t149))) (.sy (.sy
    (.sx (t150) (t151)) (t152)) (t153))))) (.sy (.sx (.sy (t154) (.sx (.sy (t155) (.sx (t156) (t157))) (.sy (t158)
    (t159)))) (.sy (.sx (t160) (t161)) (.sx (.sy (.sy (t162) (t163)) (t164)) (.sy (t165) (t166))))) (.sx (.sy (.sx
    (t167) (t168)) (t169)) (t170)))) (.sy (.sx (.sx (.sy (t171) (.sx (.sx (t172) (t173)) (t174))) (.sy (.sy (.sx
    (t175) (.sy (t176) (.sy (t177) (.sx (t178) (t179))))) (.sx (.sy (.sx (t180) (t181)) (t182)) (t183))) (t184)))
    (.sy (.sy (.sx (.sy (t185) (.sx (t186) (t187))) (t188)) (t189)) (t190))) (t191))

theorem checked2 : checkR job con2 true ⟨7, 9, 7, 9, 13, 17⟩ 1 28336 tree2 13 7 20 2039 39 2000 = true :=
  (checkR_sx (checkR_sx (checkR_sx (checkR_sx (checkR_sy c134 c135) (checkR_sy (checkR_sx (checkR_sy c136 (checkR_sx
    c137 c138)) (checkR_sy (checkR_sx (checkR_sy c139 c140) c141) c142)) (checkR_sy c143 c144))) (checkR_sy
    (checkR_sx c145 c146) (checkR_sx (checkR_sy c147 (checkR_sy c148 c149)) (checkR_sy (checkR_sy (checkR_sx c150
    c151) c152) c153)))) (checkR_sy (checkR_sx (checkR_sy c154 (checkR_sx (checkR_sy c155 (checkR_sx c156 c157))
    (checkR_sy c158 c159))) (checkR_sy (checkR_sx c160 c161) (checkR_sx (checkR_sy (checkR_sy c162 c163) c164)
    (checkR_sy c165 c166)))) (checkR_sx (checkR_sy (checkR_sx c167 c168) c169) c170))) (checkR_sy (checkR_sx
    (checkR_sx (checkR_sy c171 (checkR_sx (checkR_sx c172 c173) c174)) (checkR_sy (checkR_sy (checkR_sx c175
    (checkR_sy c176 (checkR_sy c177 (checkR_sx c178 c179)))) (checkR_sx (checkR_sy (checkR_sx c180 c181) c182) c183))
    c184)) (checkR_sy (checkR_sy (checkR_sx (checkR_sy c185 (checkR_sx c186 c187)) c188) c189) c190)) c191))

end PyX.Kron.V3b
