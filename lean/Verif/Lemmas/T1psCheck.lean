import Verif.Lemmas.T1psA
import Verif.Lemmas.T1psB
import Verif.Lemmas.T1psC
import Verif.Lemmas.T1psD

/-!
# Temperature from pressure and entropy in region 1: the certificate as a whole
-/

namespace PyX.Kron.T1ps

def tree : CTree :=
  .sx (.sy (.sx (.sy (.sx (t0) (t1)) (t2)) (.sy (t3) (t4))) (.sx (.sy (t5) (t6)) (.sy (t7) (.sy (t8) (t9))))) (.sy
    (.sx (.sy (t10) (t11)) (.sy (t12) (t13))) (.sx (.sy (t14) (.sx (t15) (.sy (t16) (.sx (t17) (t18))))) (.sy (.sx
    (t19) (t20)) (.sx (.sy (.sx (t21) (t22)) (.sx (.sy (t23) (t24)) (.sy (t25) (.sx (.sy (t26) (.sx (t27) (.sy (t28)
    (.sx (t29) (t30))))) (.sy (t31) (t32)))))) (.sx (.sy (.sy (t33) (.sx (.sy (t34) (t35)) (t36))) (t37)) (t38))))))

theorem checked : checkC job ⟨6, 8, 5, 6, 9, 13⟩ 1 40 B1.zlims tree 163 121 40 298 175 474 = true :=
  (checkC_sx (checkC_sy (checkC_sx (checkC_sy (checkC_sx c0 c1) c2) (checkC_sy c3 c4)) (checkC_sx (checkC_sy c5 c6)
    (checkC_sy c7 (checkC_sy c8 c9)))) (checkC_sy (checkC_sx (checkC_sy c10 c11) (checkC_sy c12 c13)) (checkC_sx
    (checkC_sy c14 (checkC_sx c15 (checkC_sy c16 (checkC_sx c17 c18)))) (checkC_sy (checkC_sx c19 c20) (checkC_sx
    (checkC_sy (checkC_sx c21 c22) (checkC_sx (checkC_sy c23 c24) (checkC_sy c25 (checkC_sx (checkC_sy c26 (checkC_sx
    c27 (checkC_sy c28 (checkC_sx c29 c30)))) (checkC_sy c31 c32))))) (checkC_sx (checkC_sy (checkC_sy c33 (checkC_sx
    (checkC_sy c34 c35) c36)) c37) c38))))))

end PyX.Kron.T1ps
