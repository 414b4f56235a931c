import Verif.Lemmas.T2aA
import Verif.Lemmas.T2aB
import Verif.Lemmas.T2aC

/-!
# Temperature from pressure and enthalpy in subregion 2a: the certificate as a whole
-/

namespace PyX.Kron.T2a

def tree : CTree :=
  .sy (.sx (.sy (t0) (.sy (t1) (.sx (.sy (t2) (.sx (t3) (t4))) (t5)))) (.sy (t6) (.sx (.sy (t7) (t8)) (.sy (.sy (t9)
    (.sy (t10) (.sy (t11) (t12)))) (t13))))) (.sx (.sx (.sy (.sy (.sx (.sy (.sx (t14) (.sy (t15) (t16))) (t17))
    (t18)) (t19)) (.sx (.sx (.sx (.sx (.sx (.sy (.sy (.sx (.sx (t20) (t21)) (t22)) (.sx (.sx (.sx (t23) (t24)) (t25))
    (t26))) (.sx (.sx (.sx (.sy (.sx (t27) (t28)) (.sx (.sx (t29) (t30)) (t31))) (t32)) (t33)) (t34))) (t35)) (t36))
    (t37)) (t38)) (t39))) (t40)) (t41))

theorem checked : checkC job ⟨6, 8, 8, 10, 9, 13⟩ 3 100 lims tree 2 2 1 3 3 4 = true :=
  (checkC_sy (checkC_sx (checkC_sy c0 (checkC_sy c1 (checkC_sx (checkC_sy c2 (checkC_sx c3 c4)) c5))) (checkC_sy c6
    (checkC_sx (checkC_sy c7 c8) (checkC_sy (checkC_sy c9 (checkC_sy c10 (checkC_sy c11 c12))) c13)))) (checkC_sx
    (checkC_sx (checkC_sy (checkC_sy (checkC_sx (checkC_sy (checkC_sx c14 (checkC_sy c15 c16)) c17) c18) c19)
    (checkC_sx (checkC_sx (checkC_sx (checkC_sx (checkC_sx (checkC_sy (checkC_sy (checkC_sx (checkC_sx c20 c21) c22)
    (checkC_sx (checkC_sx (checkC_sx c23 c24) c25) c26)) (checkC_sx (checkC_sx (checkC_sx (checkC_sy (checkC_sx c27
    c28) (checkC_sx (checkC_sx c29 c30) c31)) c32) c33) c34)) c35) c36) c37) c38) c39)) c40) c41))

end PyX.Kron.T2a
