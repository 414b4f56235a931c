import Verif.Lemmas.P1hsA
import Verif.Lemmas.P1hsB
import Verif.Lemmas.P1hsC
import Verif.Lemmas.P1hsD
import Verif.Lemmas.P1hsE
import Verif.Lemmas.P1hsF
import Verif.Lemmas.P1hsG
import Verif.Lemmas.P1hsH

/-!
# Pressure from enthalpy and entropy in region 1: the certificate as a whole
-/

namespace PyX.Kron.P1hs

def tree : CTree :=
  .sx (.sy (.sx (.sy (.sx (t0) (t1)) (t2)) (.sy (.sx (t3) (t4)) (t5))) (.sx (.sy (t6) (.sy (t7) (t8))) (.sy (t9) (.sy
    (t10) (t11))))) (.sy (.sx (.sy (.sx (t12) (t13)) (t14)) (.sy (.sx (t15) (t16)) (.sx (t17) (t18)))) (.sx (.sy (.sy
    (t19) (t20)) (.sx (.sy (t21) (t22)) (.sy (t23) (.sx (t24) (.sy (t25) (t26)))))) (.sy (.sx (.sy (t27) (t28)) (.sy
    (t29) (t30))) (.sx (.sy (.sx (t31) (.sy (t32) (t33))) (.sx (.sy (t34) (.sx (t35) (t36))) (.sy (.sx (t37) (t38))
    (.sx (.sy (t39) (t40)) (t41))))) (.sx (.sy (.sy (t42) (t43)) (t44)) (t45))))))

theorem checked : checkC job ⟨6, 8, 6, 7, 9, 13⟩ 3 200 B1.zlims tree 163 121 40 298 175 474 = true :=
  (checkC_sx (checkC_sy (checkC_sx (checkC_sy (checkC_sx c0 c1) c2) (checkC_sy (checkC_sx c3 c4) c5)) (checkC_sx
    (checkC_sy c6 (checkC_sy c7 c8)) (checkC_sy c9 (checkC_sy c10 c11)))) (checkC_sy (checkC_sx (checkC_sy (checkC_sx
    c12 c13) c14) (checkC_sy (checkC_sx c15 c16) (checkC_sx c17 c18))) (checkC_sx (checkC_sy (checkC_sy c19 c20)
    (checkC_sx (checkC_sy c21 c22) (checkC_sy c23 (checkC_sx c24 (checkC_sy c25 c26))))) (checkC_sy (checkC_sx
    (checkC_sy c27 c28) (checkC_sy c29 c30)) (checkC_sx (checkC_sy (checkC_sx c31 (checkC_sy c32 c33)) (checkC_sx
    (checkC_sy c34 (checkC_sx c35 c36)) (checkC_sy (checkC_sx c37 c38) (checkC_sx (checkC_sy c39 c40) c41))))
    (checkC_sx (checkC_sy (checkC_sy c42 c43) c44) c45))))))

end PyX.Kron.P1hs
