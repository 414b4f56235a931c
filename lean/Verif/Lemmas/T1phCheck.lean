import Verif.Lemmas.T1phA
import Verif.Lemmas.T1phB
import Verif.Lemmas.T1phC
import Verif.Lemmas.T1phD

/-!
# Temperature from pressure and enthalpy in region 1: the certificate as a whole
-/

namespace PyX.Kron.T1ph

def tree : CTree :=
  .sx (.sy (.sx (.sy (.sx (.sy (.sy (t0) (t1)) (t2)) (t3)) (t4)) (.sy (.sx (.sy (t5) (t6)) (.sy (t7) (t8))) (t9)))
    (.sx (.sy (t10) (.sy (t11) (.sx (t12) (t13)))) (.sy (t14) (.sy (t15) (t16))))) (.sy (.sx (.sy (.sx (t17) (t18))
    (t19)) (.sy (.sx (t20) (t21)) (.sx (t22) (t23)))) (.sx (.sy (.sy (t24) (t25)) (.sx (.sy (t26) (.sx (t27) (t28)))
    (.sy (t29) (.sx (.sy (t30) (t31)) (.sy (t32) (t33)))))) (.sy (.sx (t34) (.sy (t35) (t36))) (.sx (.sy (.sx (t37)
    (t38)) (.sx (.sy (t39) (t40)) (.sy (t41) (.sx (.sy (t42) (.sx (t43) (.sy (t44) (t45)))) (t46))))) (.sx (.sy (t47)
    (t48)) (t49))))))

theorem checked : checkC job ⟨6, 8, 5, 6, 9, 13⟩ 1 40 B1.zlims tree 81 61 20 298 175 474 = true :=
  (checkC_sx (checkC_sy (checkC_sx (checkC_sy (checkC_sx (checkC_sy (checkC_sy c0 c1) c2) c3) c4) (checkC_sy
    (checkC_sx (checkC_sy c5 c6) (checkC_sy c7 c8)) c9)) (checkC_sx (checkC_sy c10 (checkC_sy c11 (checkC_sx c12
    c13))) (checkC_sy c14 (checkC_sy c15 c16)))) (checkC_sy (checkC_sx (checkC_sy (checkC_sx c17 c18) c19) (checkC_sy
    (checkC_sx c20 c21) (checkC_sx c22 c23))) (checkC_sx (checkC_sy (checkC_sy c24 c25) (checkC_sx (checkC_sy c26
    (checkC_sx c27 c28)) (checkC_sy c29 (checkC_sx (checkC_sy c30 c31) (checkC_sy c32 c33))))) (checkC_sy (checkC_sx
    c34 (checkC_sy c35 c36)) (checkC_sx (checkC_sy (checkC_sx c37 c38) (checkC_sx (checkC_sy c39 c40) (checkC_sy c41
    (checkC_sx (checkC_sy c42 (checkC_sx c43 (checkC_sy c44 c45))) c46)))) (checkC_sx (checkC_sy c47 c48) c49))))))

end PyX.Kron.T1ph
