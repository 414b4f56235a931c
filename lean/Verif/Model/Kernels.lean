-- Transcribed from the Python source by tools/py2lean.py; see the citation at each definition.
import Verif.Model.Constants

set_option linter.unusedVariables false

namespace PyX

open Classical

namespace RegionBorders

/-- pyXSteam/RegionBorders.py:8-17 -/
noncomputable def B23p_T (F : FP) (T : Num) : Py Num := do
  pure (F.add (F.sub (F.lit 348.05185628969) (F.mul (F.lit 1.1671859879975) T)) (F.mul (F.lit 1.0192970039326e-03) (← F.pow T (Num.ofInt 2))))

/-- pyXSteam/RegionBorders.py:20-29 -/
noncomputable def B23T_p (F : FP) (p : Num) : Py Num := do
  pure (F.add (F.lit 572.54459862746) (← F.pow (← F.div (F.sub p (F.lit 13.91883977887)) (F.lit 1.0192970039326e-03)) (F.lit 0.5)))

/-- pyXSteam/RegionBorders.py:41-41 -/
def p3sat_h.Ii : List ℤ :=
  [0, 1, 1, 1, 1, 5, 7, 8, 14, 20, 22, 24, 28, 36]

/-- pyXSteam/RegionBorders.py:42-42 -/
def p3sat_h.Ji : List ℤ :=
  [0, 1, 3, 4, 36, 3, 0, 24, 16, 16, 3, 18, 8, 24]

/-- pyXSteam/RegionBorders.py:43-58 -/
def p3sat_h.ni : List ℚ :=
  [0.600073641753024, -9.36203654849857, 24.6590798594147, -107.014222858224, -91582131580576.8,
   -8623.32011700662, -23.5837344740032, 2.52304969384128e17, -3.89718771997719e18,
   -3.33775713645296e22, 35649946963.6328, -1.48547544720641e26, 3.30611514838798e18,
   8.13641294467829e37]

/-- pyXSteam/RegionBorders.py:32-63 -/
noncomputable def p3sat_h (F : FP) (h : Num) : Py Num := do
  let hs ← F.div h (Num.ofInt 2600)
  let ps := (Num.ofInt 0)
  let ps ← forRange 0 14 ps fun i ps => do
    let ps := (F.add ps (F.mul (F.mul (F.lit (← idx p3sat_h.ni i)) (← F.pow (F.sub hs (F.lit 1.02)) (Num.ofInt (← idx p3sat_h.Ii i)))) (← F.pow (F.sub hs (F.lit 0.608)) (Num.ofInt (← idx p3sat_h.Ji i)))))
    pure ps
  pure (F.mul ps (Num.ofInt 22))

/-- pyXSteam/RegionBorders.py:71-71 -/
def p3sat_s.Ii : List ℤ :=
  [0, 1, 1, 4, 12, 12, 16, 24, 28, 32]

/-- pyXSteam/RegionBorders.py:72-72 -/
def p3sat_s.Ji : List ℤ :=
  [0, 1, 32, 7, 4, 14, 36, 10, 0, 18]

/-- pyXSteam/RegionBorders.py:73-84 -/
def p3sat_s.ni : List ℚ :=
  [0.639767553612785, -12.9727445396014, -2.24595125848403e15, 1774667.41801846,
   7170793495.71538, -3.78829107169011e17, -9.55586736431328e34, 1.87269814676188e23,
   119254746466.473, 1.10649277244882e36]

/-- pyXSteam/RegionBorders.py:66-89 -/
noncomputable def p3sat_s (F : FP) (s : Num) : Py Num := do
  let Sigma ← F.div s (F.lit 5.2)
  let Pi := (Num.ofInt 0)
  let Pi ← forRange 0 10 Pi fun i Pi => do
    let Pi := (F.add Pi (F.mul (F.mul (F.lit (← idx p3sat_s.ni i)) (← F.pow (F.sub Sigma (F.lit 1.03)) (Num.ofInt (← idx p3sat_s.Ii i)))) (← F.pow (F.sub Sigma (F.lit 0.699)) (Num.ofInt (← idx p3sat_s.Ji i)))))
    pure Pi
  pure (F.mul Pi (Num.ofInt 22))

/-- pyXSteam/RegionBorders.py:99-99 -/
def hB13_s.Ii : List ℤ :=
  [0, 1, 1, 3, 5, 6]

/-- pyXSteam/RegionBorders.py:100-100 -/
def hB13_s.Ji : List ℤ :=
  [0, -2, 2, -12, -4, -3]

/-- pyXSteam/RegionBorders.py:101-108 -/
def hB13_s.ni : List ℚ :=
  [0.913965547600543, -4.30944856041991e-05, 60.3235694765419, 1.17518273082168e-18,
   0.220000904781292, -69.0815545851641]

/-- pyXSteam/RegionBorders.py:92-113 -/
noncomputable def hB13_s (F : FP) (s : Num) : Py Num := do
  let Sigma ← F.div s (F.lit 3.8)
  let eta := (Num.ofInt 0)
  let eta ← forRange 0 6 eta fun i eta => do
    let eta := (F.add eta (F.mul (F.mul (F.lit (← idx hB13_s.ni i)) (← F.pow (F.sub Sigma (F.lit 0.884)) (Num.ofInt (← idx hB13_s.Ii i)))) (← F.pow (F.sub Sigma (F.lit 0.864)) (Num.ofInt (← idx hB13_s.Ji i)))))
    pure eta
  pure (F.mul eta (Num.ofInt 1700))

/-- pyXSteam/RegionBorders.py:123-149 -/
def TB23_hs.Ii : List ℤ :=
  [-12, -10, -8, -4, -3, -2, -2, -2, -2, 0, 1, 1, 1, 3, 3, 5, 6, 6, 8, 8, 8, 12, 12, 14, 14]

/-- pyXSteam/RegionBorders.py:150-176 -/
def TB23_hs.Ji : List ℤ :=
  [10, 8, 3, 4, 3, -6, 2, 3, 4, 0, -3, -2, 10, -2, -1, -5, -6, -3, -8, -2, -1, -12, -1, -12, 1]

/-- pyXSteam/RegionBorders.py:177-203 -/
def TB23_hs.ni : List ℚ :=
  [6.2909626082981e-04, -8.23453502583165e-04, 5.15446951519474e-08, -1.17565945784945,
   3.48519684726192, -5.07837382408313e-12, -2.84637670005479, -2.36092263939673,
   6.01492324973779, 1.48039650824546, 3.60075182221907e-04, -1.26700045009952e-02,
   -1221843.32521413, 0.149276502463272, 0.698733471798484, -2.52207040114321e-02,
   1.47151930985213e-02, -1.08618917681849, -9.36875039816322e-04, 81.9877897570217,
   -182.041861521835, 2.61907376402688e-06, -29162.6417025961, 1.40660774926165e-05,
   7832370.62349385]

/-- pyXSteam/RegionBorders.py:116-209 -/
noncomputable def TB23_hs (F : FP) (h : Num) (s : Num) : Py Num := do
  let Sigma ← F.div s (F.lit 5.3)
  let eta ← F.div h (Num.ofInt 3000)
  let teta := (Num.ofInt 0)
  let teta ← forRange 0 25 teta fun i teta => do
    let teta := (F.add teta (F.mul (F.mul (F.lit (← idx TB23_hs.ni i)) (← F.pow (F.sub eta (F.lit 0.727)) (Num.ofInt (← idx TB23_hs.Ii i)))) (← F.pow (F.sub Sigma (F.lit 0.864)) (Num.ofInt (← idx TB23_hs.Ji i)))))
    pure teta
  pure (F.mul teta (Num.ofInt 900))

end RegionBorders

namespace Region1

/-- pyXSteam/Regions.py:27-62 -/
def v1_pT.I1 : List ℤ :=
  [0, 0, 0, 0, 0, 0, 0, 0, 1, 1, 1, 1, 1, 1, 2, 2, 2, 2, 2, 3, 3, 3, 4, 4, 4, 5, 8, 8, 21, 23,
   29, 30, 31, 32]

/-- pyXSteam/Regions.py:63-98 -/
def v1_pT.J1 : List ℤ :=
  [-2, -1, 0, 1, 2, 3, 4, 5, -9, -7, -1, 0, 1, 3, -3, 0, 1, 3, 17, -4, 0, 6, -5, -2, 10, -8, -11,
   -6, -29, -31, -38, -39, -40, -41]

/-- pyXSteam/Regions.py:99-134 -/
def v1_pT.n1 : List ℚ :=
  [0.14632971213167, -0.84548187169114, -3.756360367204, 3.3855169168385, -0.95791963387872,
   0.15772038513228, -0.016616417199501, 8.1214629983568e-04, 2.8319080123804e-04,
   -6.0706301565874e-04, -0.018990068218419, -0.032529748770505, -0.021841717175414,
   -5.283835796993e-05, -4.7184321073267e-04, -3.0001780793026e-04, 4.7661393906987e-05,
   -4.4141845330846e-06, -7.2694996297594e-16, -3.1679644845054e-05, -2.8270797985312e-06,
   -8.5205128120103e-10, -2.2425281908e-06, -6.5171222895601e-07, -1.4341729937924e-13,
   -4.0516996860117e-07, -1.2734301741641e-09, -1.7424871230634e-10, -6.8762131295531e-19,
   1.4478307828521e-20, 2.6335781662795e-23, -1.1947622640071e-23, 1.8228094581404e-24,
   -9.3537087292458e-26]

/-- pyXSteam/Regions.py:20-144 -/
noncomputable def v1_pT (F : FP) (p : Num) (T : Num) : Py Num := do
  let R := (F.lit Constants.SPECIFIC_GAS_CONSTANT)
  let Pi ← F.div p (F.lit 16.53)
  let tau ← F.div (Num.ofInt 1386) T
  let gamma_der_pi := (Num.ofInt 0)
  let gamma_der_pi ← forRange 0 34 gamma_der_pi fun i gamma_der_pi => do
    let gamma_der_pi := (F.sub gamma_der_pi (F.mul (F.mul (F.mul (F.lit (← idx v1_pT.n1 i)) (Num.ofInt (← idx v1_pT.I1 i))) (← F.pow (F.sub (F.lit 7.1) Pi) (Num.ofInt ((← idx v1_pT.I1 i) - 1)))) (← F.pow (F.sub tau (F.lit 1.222)) (Num.ofInt (← idx v1_pT.J1 i)))))
    pure gamma_der_pi
  F.div (F.mul (F.mul (← F.div (F.mul R T) p) Pi) gamma_der_pi) (Num.ofInt 1000)

/-- pyXSteam/Regions.py:155-190 -/
def h1_pT.I1 : List ℤ :=
  [0, 0, 0, 0, 0, 0, 0, 0, 1, 1, 1, 1, 1, 1, 2, 2, 2, 2, 2, 3, 3, 3, 4, 4, 4, 5, 8, 8, 21, 23,
   29, 30, 31, 32]

/-- pyXSteam/Regions.py:191-226 -/
def h1_pT.J1 : List ℤ :=
  [-2, -1, 0, 1, 2, 3, 4, 5, -9, -7, -1, 0, 1, 3, -3, 0, 1, 3, 17, -4, 0, 6, -5, -2, 10, -8, -11,
   -6, -29, -31, -38, -39, -40, -41]

/-- pyXSteam/Regions.py:227-262 -/
def h1_pT.n1 : List ℚ :=
  [0.14632971213167, -0.84548187169114, -3.756360367204, 3.3855169168385, -0.95791963387872,
   0.15772038513228, -0.016616417199501, 8.1214629983568e-04, 2.8319080123804e-04,
   -6.0706301565874e-04, -0.018990068218419, -0.032529748770505, -0.021841717175414,
   -5.283835796993e-05, -4.7184321073267e-04, -3.0001780793026e-04, 4.7661393906987e-05,
   -4.4141845330846e-06, -7.2694996297594e-16, -3.1679644845054e-05, -2.8270797985312e-06,
   -8.5205128120103e-10, -2.2425281908e-06, -6.5171222895601e-07, -1.4341729937924e-13,
   -4.0516996860117e-07, -1.2734301741641e-09, -1.7424871230634e-10, -6.8762131295531e-19,
   1.4478307828521e-20, 2.6335781662795e-23, -1.1947622640071e-23, 1.8228094581404e-24,
   -9.3537087292458e-26]

/-- pyXSteam/Regions.py:147-271 -/
noncomputable def h1_pT (F : FP) (p : Num) (T : Num) : Py Num := do
  let R := (F.lit Constants.SPECIFIC_GAS_CONSTANT)
  let Pi ← F.div p (F.lit 16.53)
  let tau ← F.div (Num.ofInt 1386) T
  let gamma_der_tau := (Num.ofInt 0)
  let gamma_der_tau ← forRange 0 34 gamma_der_tau fun i gamma_der_tau => do
    let gamma_der_tau := (F.add gamma_der_tau (F.mul (F.mul (F.mul (F.lit (← idx h1_pT.n1 i)) (← F.pow (F.sub (F.lit 7.1) Pi) (Num.ofInt (← idx h1_pT.I1 i)))) (Num.ofInt (← idx h1_pT.J1 i))) (← F.pow (F.sub tau (F.lit 1.222)) (Num.ofInt ((← idx h1_pT.J1 i) - 1)))))
    pure gamma_der_tau
  pure (F.mul (F.mul (F.mul R T) tau) gamma_der_tau)

/-- pyXSteam/Regions.py:281-316 -/
def u1_pT.I1 : List ℤ :=
  [0, 0, 0, 0, 0, 0, 0, 0, 1, 1, 1, 1, 1, 1, 2, 2, 2, 2, 2, 3, 3, 3, 4, 4, 4, 5, 8, 8, 21, 23,
   29, 30, 31, 32]

/-- pyXSteam/Regions.py:317-352 -/
def u1_pT.J1 : List ℤ :=
  [-2, -1, 0, 1, 2, 3, 4, 5, -9, -7, -1, 0, 1, 3, -3, 0, 1, 3, 17, -4, 0, 6, -5, -2, 10, -8, -11,
   -6, -29, -31, -38, -39, -40, -41]

/-- pyXSteam/Regions.py:353-388 -/
def u1_pT.n1 : List ℚ :=
  [0.14632971213167, -0.84548187169114, -3.756360367204, 3.3855169168385, -0.95791963387872,
   0.15772038513228, -0.016616417199501, 8.1214629983568e-04, 2.8319080123804e-04,
   -6.0706301565874e-04, -0.018990068218419, -0.032529748770505, -0.021841717175414,
   -5.283835796993e-05, -4.7184321073267e-04, -3.0001780793026e-04, 4.7661393906987e-05,
   -4.4141845330846e-06, -7.2694996297594e-16, -3.1679644845054e-05, -2.8270797985312e-06,
   -8.5205128120103e-10, -2.2425281908e-06, -6.5171222895601e-07, -1.4341729937924e-13,
   -4.0516996860117e-07, -1.2734301741641e-09, -1.7424871230634e-10, -6.8762131295531e-19,
   1.4478307828521e-20, 2.6335781662795e-23, -1.1947622640071e-23, 1.8228094581404e-24,
   -9.3537087292458e-26]

/-- pyXSteam/Regions.py:274-402 -/
noncomputable def u1_pT (F : FP) (p : Num) (T : Num) : Py Num := do
  let R := (F.lit Constants.SPECIFIC_GAS_CONSTANT)
  let Pi ← F.div p (F.lit 16.53)
  let tau ← F.div (Num.ofInt 1386) T
  let gamma_der_tau := (Num.ofInt 0)
  let gamma_der_pi := (Num.ofInt 0)
  let (gamma_der_pi, gamma_der_tau) ← forRange 0 34 (gamma_der_pi, gamma_der_tau) fun i (gamma_der_pi, gamma_der_tau) => do
    let gamma_der_pi := (F.sub gamma_der_pi (F.mul (F.mul (F.mul (F.lit (← idx u1_pT.n1 i)) (Num.ofInt (← idx u1_pT.I1 i))) (← F.pow (F.sub (F.lit 7.1) Pi) (Num.ofInt ((← idx u1_pT.I1 i) - 1)))) (← F.pow (F.sub tau (F.lit 1.222)) (Num.ofInt (← idx u1_pT.J1 i)))))
    let gamma_der_tau := (F.add gamma_der_tau (F.mul (F.mul (F.mul (F.lit (← idx u1_pT.n1 i)) (← F.pow (F.sub (F.lit 7.1) Pi) (Num.ofInt (← idx u1_pT.I1 i)))) (Num.ofInt (← idx u1_pT.J1 i))) (← F.pow (F.sub tau (F.lit 1.222)) (Num.ofInt ((← idx u1_pT.J1 i) - 1)))))
    pure (gamma_der_pi, gamma_der_tau)
  pure (F.mul (F.mul R T) (F.sub (F.mul tau gamma_der_tau) (F.mul Pi gamma_der_pi)))

/-- pyXSteam/Regions.py:412-447 -/
def s1_pT.I1 : List ℤ :=
  [0, 0, 0, 0, 0, 0, 0, 0, 1, 1, 1, 1, 1, 1, 2, 2, 2, 2, 2, 3, 3, 3, 4, 4, 4, 5, 8, 8, 21, 23,
   29, 30, 31, 32]

/-- pyXSteam/Regions.py:448-483 -/
def s1_pT.J1 : List ℤ :=
  [-2, -1, 0, 1, 2, 3, 4, 5, -9, -7, -1, 0, 1, 3, -3, 0, 1, 3, 17, -4, 0, 6, -5, -2, 10, -8, -11,
   -6, -29, -31, -38, -39, -40, -41]

/-- pyXSteam/Regions.py:484-519 -/
def s1_pT.n1 : List ℚ :=
  [0.14632971213167, -0.84548187169114, -3.756360367204, 3.3855169168385, -0.95791963387872,
   0.15772038513228, -0.016616417199501, 8.1214629983568e-04, 2.8319080123804e-04,
   -6.0706301565874e-04, -0.018990068218419, -0.032529748770505, -0.021841717175414,
   -5.283835796993e-05, -4.7184321073267e-04, -3.0001780793026e-04, 4.7661393906987e-05,
   -4.4141845330846e-06, -7.2694996297594e-16, -3.1679644845054e-05, -2.8270797985312e-06,
   -8.5205128120103e-10, -2.2425281908e-06, -6.5171222895601e-07, -1.4341729937924e-13,
   -4.0516996860117e-07, -1.2734301741641e-09, -1.7424871230634e-10, -6.8762131295531e-19,
   1.4478307828521e-20, 2.6335781662795e-23, -1.1947622640071e-23, 1.8228094581404e-24,
   -9.3537087292458e-26]

/-- pyXSteam/Regions.py:405-530 -/
noncomputable def s1_pT (F : FP) (p : Num) (T : Num) : Py Num := do
  let R := (F.lit Constants.SPECIFIC_GAS_CONSTANT)
  let Pi ← F.div p (F.lit 16.53)
  let tau ← F.div (Num.ofInt 1386) T
  let gamma := (Num.ofInt 0)
  let gamma_der_tau := (Num.ofInt 0)
  let (gamma_der_tau, gamma) ← forRange 0 34 (gamma_der_tau, gamma) fun i (gamma_der_tau, gamma) => do
    let gamma_der_tau := (F.add gamma_der_tau (F.mul (F.mul (F.mul (F.lit (← idx s1_pT.n1 i)) (← F.pow (F.sub (F.lit 7.1) Pi) (Num.ofInt (← idx s1_pT.I1 i)))) (Num.ofInt (← idx s1_pT.J1 i))) (← F.pow (F.sub tau (F.lit 1.222)) (Num.ofInt ((← idx s1_pT.J1 i) - 1)))))
    let gamma := (F.add gamma (F.mul (F.mul (F.lit (← idx s1_pT.n1 i)) (← F.pow (F.sub (F.lit 7.1) Pi) (Num.ofInt (← idx s1_pT.I1 i)))) (← F.pow (F.sub tau (F.lit 1.222)) (Num.ofInt (← idx s1_pT.J1 i)))))
    pure (gamma_der_tau, gamma)
  pure (F.sub (F.mul (F.mul R tau) gamma_der_tau) (F.mul R gamma))

/-- pyXSteam/Regions.py:540-575 -/
def Cp1_pT.I1 : List ℤ :=
  [0, 0, 0, 0, 0, 0, 0, 0, 1, 1, 1, 1, 1, 1, 2, 2, 2, 2, 2, 3, 3, 3, 4, 4, 4, 5, 8, 8, 21, 23,
   29, 30, 31, 32]

/-- pyXSteam/Regions.py:576-611 -/
def Cp1_pT.J1 : List ℤ :=
  [-2, -1, 0, 1, 2, 3, 4, 5, -9, -7, -1, 0, 1, 3, -3, 0, 1, 3, 17, -4, 0, 6, -5, -2, 10, -8, -11,
   -6, -29, -31, -38, -39, -40, -41]

/-- pyXSteam/Regions.py:612-647 -/
def Cp1_pT.n1 : List ℚ :=
  [0.14632971213167, -0.84548187169114, -3.756360367204, 3.3855169168385, -0.95791963387872,
   0.15772038513228, -0.016616417199501, 8.1214629983568e-04, 2.8319080123804e-04,
   -6.0706301565874e-04, -0.018990068218419, -0.032529748770505, -0.021841717175414,
   -5.283835796993e-05, -4.7184321073267e-04, -3.0001780793026e-04, 4.7661393906987e-05,
   -4.4141845330846e-06, -7.2694996297594e-16, -3.1679644845054e-05, -2.8270797985312e-06,
   -8.5205128120103e-10, -2.2425281908e-06, -6.5171222895601e-07, -1.4341729937924e-13,
   -4.0516996860117e-07, -1.2734301741641e-09, -1.7424871230634e-10, -6.8762131295531e-19,
   1.4478307828521e-20, 2.6335781662795e-23, -1.1947622640071e-23, 1.8228094581404e-24,
   -9.3537087292458e-26]

/-- pyXSteam/Regions.py:533-660 -/
noncomputable def Cp1_pT (F : FP) (p : Num) (T : Num) : Py Num := do
  let R := (F.lit Constants.SPECIFIC_GAS_CONSTANT)
  let Pi ← F.div p (F.lit 16.53)
  let tau ← F.div (Num.ofInt 1386) T
  let gamma_der_tautau := (Num.ofInt 0)
  let gamma_der_tautau ← forRange 0 34 gamma_der_tautau fun i gamma_der_tautau => do
    let gamma_der_tautau := (F.add gamma_der_tautau (F.mul (F.mul (F.mul (F.mul (F.lit (← idx Cp1_pT.n1 i)) (← F.pow (F.sub (F.lit 7.1) Pi) (Num.ofInt (← idx Cp1_pT.I1 i)))) (Num.ofInt (← idx Cp1_pT.J1 i))) (Num.ofInt ((← idx Cp1_pT.J1 i) - 1))) (← F.pow (F.sub tau (F.lit 1.222)) (Num.ofInt ((← idx Cp1_pT.J1 i) - 2)))))
    pure gamma_der_tautau
  pure (F.mul (F.mul (Num.neg R) (← F.pow tau (Num.ofInt 2))) gamma_der_tautau)

/-- pyXSteam/Regions.py:670-705 -/
def Cv1_pT.I1 : List ℤ :=
  [0, 0, 0, 0, 0, 0, 0, 0, 1, 1, 1, 1, 1, 1, 2, 2, 2, 2, 2, 3, 3, 3, 4, 4, 4, 5, 8, 8, 21, 23,
   29, 30, 31, 32]

/-- pyXSteam/Regions.py:706-741 -/
def Cv1_pT.J1 : List ℤ :=
  [-2, -1, 0, 1, 2, 3, 4, 5, -9, -7, -1, 0, 1, 3, -3, 0, 1, 3, 17, -4, 0, 6, -5, -2, 10, -8, -11,
   -6, -29, -31, -38, -39, -40, -41]

/-- pyXSteam/Regions.py:742-777 -/
def Cv1_pT.n1 : List ℚ :=
  [0.14632971213167, -0.84548187169114, -3.756360367204, 3.3855169168385, -0.95791963387872,
   0.15772038513228, -0.016616417199501, 8.1214629983568e-04, 2.8319080123804e-04,
   -6.0706301565874e-04, -0.018990068218419, -0.032529748770505, -0.021841717175414,
   -5.283835796993e-05, -4.7184321073267e-04, -3.0001780793026e-04, 4.7661393906987e-05,
   -4.4141845330846e-06, -7.2694996297594e-16, -3.1679644845054e-05, -2.8270797985312e-06,
   -8.5205128120103e-10, -2.2425281908e-06, -6.5171222895601e-07, -1.4341729937924e-13,
   -4.0516996860117e-07, -1.2734301741641e-09, -1.7424871230634e-10, -6.8762131295531e-19,
   1.4478307828521e-20, 2.6335781662795e-23, -1.1947622640071e-23, 1.8228094581404e-24,
   -9.3537087292458e-26]

/-- pyXSteam/Regions.py:663-807 -/
noncomputable def Cv1_pT (F : FP) (p : Num) (T : Num) : Py Num := do
  let R := (F.lit Constants.SPECIFIC_GAS_CONSTANT)
  let Pi ← F.div p (F.lit 16.53)
  let tau ← F.div (Num.ofInt 1386) T
  let gamma_der_pi := (Num.ofInt 0)
  let gamma_der_pipi := (Num.ofInt 0)
  let gamma_der_pitau := (Num.ofInt 0)
  let gamma_der_tautau := (Num.ofInt 0)
  let (gamma_der_pi, gamma_der_pipi, gamma_der_pitau, gamma_der_tautau) ← forRange 0 34 (gamma_der_pi, gamma_der_pipi, gamma_der_pitau, gamma_der_tautau) fun i (gamma_der_pi, gamma_der_pipi, gamma_der_pitau, gamma_der_tautau) => do
    let gamma_der_pi := (F.sub gamma_der_pi (F.mul (F.mul (F.mul (F.lit (← idx Cv1_pT.n1 i)) (Num.ofInt (← idx Cv1_pT.I1 i))) (← F.pow (F.sub (F.lit 7.1) Pi) (Num.ofInt ((← idx Cv1_pT.I1 i) - 1)))) (← F.pow (F.sub tau (F.lit 1.222)) (Num.ofInt (← idx Cv1_pT.J1 i)))))
    let gamma_der_pipi := (F.add gamma_der_pipi (F.mul (F.mul (F.mul (F.mul (F.lit (← idx Cv1_pT.n1 i)) (Num.ofInt (← idx Cv1_pT.I1 i))) (Num.ofInt ((← idx Cv1_pT.I1 i) - 1))) (← F.pow (F.sub (F.lit 7.1) Pi) (Num.ofInt ((← idx Cv1_pT.I1 i) - 2)))) (← F.pow (F.sub tau (F.lit 1.222)) (Num.ofInt (← idx Cv1_pT.J1 i)))))
    let gamma_der_pitau := (F.sub gamma_der_pitau (F.mul (F.mul (F.mul (F.mul (F.lit (← idx Cv1_pT.n1 i)) (Num.ofInt (← idx Cv1_pT.I1 i))) (← F.pow (F.sub (F.lit 7.1) Pi) (Num.ofInt ((← idx Cv1_pT.I1 i) - 1)))) (Num.ofInt (← idx Cv1_pT.J1 i))) (← F.pow (F.sub tau (F.lit 1.222)) (Num.ofInt ((← idx Cv1_pT.J1 i) - 1)))))
    let gamma_der_tautau := (F.add gamma_der_tautau (F.mul (F.mul (F.mul (F.mul (F.lit (← idx Cv1_pT.n1 i)) (← F.pow (F.sub (F.lit 7.1) Pi) (Num.ofInt (← idx Cv1_pT.I1 i)))) (Num.ofInt (← idx Cv1_pT.J1 i))) (Num.ofInt ((← idx Cv1_pT.J1 i) - 1))) (← F.pow (F.sub tau (F.lit 1.222)) (Num.ofInt ((← idx Cv1_pT.J1 i) - 2)))))
    pure (gamma_der_pi, gamma_der_pipi, gamma_der_pitau, gamma_der_tautau)
  pure (F.mul R (F.add (F.mul (Num.neg (← F.pow tau (Num.ofInt 2))) gamma_der_tautau) (← F.div (← F.pow (F.sub gamma_der_pi (F.mul tau gamma_der_pitau)) (Num.ofInt 2)) gamma_der_pipi)))

/-- pyXSteam/Regions.py:817-852 -/
def w1_pT.I1 : List ℤ :=
  [0, 0, 0, 0, 0, 0, 0, 0, 1, 1, 1, 1, 1, 1, 2, 2, 2, 2, 2, 3, 3, 3, 4, 4, 4, 5, 8, 8, 21, 23,
   29, 30, 31, 32]

/-- pyXSteam/Regions.py:853-888 -/
def w1_pT.J1 : List ℤ :=
  [-2, -1, 0, 1, 2, 3, 4, 5, -9, -7, -1, 0, 1, 3, -3, 0, 1, 3, 17, -4, 0, 6, -5, -2, 10, -8, -11,
   -6, -29, -31, -38, -39, -40, -41]

/-- pyXSteam/Regions.py:889-924 -/
def w1_pT.n1 : List ℚ :=
  [0.14632971213167, -0.84548187169114, -3.756360367204, 3.3855169168385, -0.95791963387872,
   0.15772038513228, -0.016616417199501, 8.1214629983568e-04, 2.8319080123804e-04,
   -6.0706301565874e-04, -0.018990068218419, -0.032529748770505, -0.021841717175414,
   -5.283835796993e-05, -4.7184321073267e-04, -3.0001780793026e-04, 4.7661393906987e-05,
   -4.4141845330846e-06, -7.2694996297594e-16, -3.1679644845054e-05, -2.8270797985312e-06,
   -8.5205128120103e-10, -2.2425281908e-06, -6.5171222895601e-07, -1.4341729937924e-13,
   -4.0516996860117e-07, -1.2734301741641e-09, -1.7424871230634e-10, -6.8762131295531e-19,
   1.4478307828521e-20, 2.6335781662795e-23, -1.1947622640071e-23, 1.8228094581404e-24,
   -9.3537087292458e-26]

/-- pyXSteam/Regions.py:810-961 -/
noncomputable def w1_pT (F : FP) (p : Num) (T : Num) : Py Num := do
  let R := (F.lit Constants.SPECIFIC_GAS_CONSTANT)
  let Pi ← F.div p (F.lit 16.53)
  let tau ← F.div (Num.ofInt 1386) T
  let gamma_der_pi := (Num.ofInt 0)
  let gamma_der_pipi := (Num.ofInt 0)
  let gamma_der_pitau := (Num.ofInt 0)
  let gamma_der_tautau := (Num.ofInt 0)
  let (gamma_der_pi, gamma_der_pipi, gamma_der_pitau, gamma_der_tautau) ← forRange 0 34 (gamma_der_pi, gamma_der_pipi, gamma_der_pitau, gamma_der_tautau) fun i (gamma_der_pi, gamma_der_pipi, gamma_der_pitau, gamma_der_tautau) => do
    let gamma_der_pi := (F.sub gamma_der_pi (F.mul (F.mul (F.mul (F.lit (← idx w1_pT.n1 i)) (Num.ofInt (← idx w1_pT.I1 i))) (← F.pow (F.sub (F.lit 7.1) Pi) (Num.ofInt ((← idx w1_pT.I1 i) - 1)))) (← F.pow (F.sub tau (F.lit 1.222)) (Num.ofInt (← idx w1_pT.J1 i)))))
    let gamma_der_pipi := (F.add gamma_der_pipi (F.mul (F.mul (F.mul (F.mul (F.lit (← idx w1_pT.n1 i)) (Num.ofInt (← idx w1_pT.I1 i))) (Num.ofInt ((← idx w1_pT.I1 i) - 1))) (← F.pow (F.sub (F.lit 7.1) Pi) (Num.ofInt ((← idx w1_pT.I1 i) - 2)))) (← F.pow (F.sub tau (F.lit 1.222)) (Num.ofInt (← idx w1_pT.J1 i)))))
    let gamma_der_pitau := (F.sub gamma_der_pitau (F.mul (F.mul (F.mul (F.mul (F.lit (← idx w1_pT.n1 i)) (Num.ofInt (← idx w1_pT.I1 i))) (← F.pow (F.sub (F.lit 7.1) Pi) (Num.ofInt ((← idx w1_pT.I1 i) - 1)))) (Num.ofInt (← idx w1_pT.J1 i))) (← F.pow (F.sub tau (F.lit 1.222)) (Num.ofInt ((← idx w1_pT.J1 i) - 1)))))
    let gamma_der_tautau := (F.add gamma_der_tautau (F.mul (F.mul (F.mul (F.mul (F.lit (← idx w1_pT.n1 i)) (← F.pow (F.sub (F.lit 7.1) Pi) (Num.ofInt (← idx w1_pT.I1 i)))) (Num.ofInt (← idx w1_pT.J1 i))) (Num.ofInt ((← idx w1_pT.J1 i) - 1))) (← F.pow (F.sub tau (F.lit 1.222)) (Num.ofInt ((← idx w1_pT.J1 i) - 2)))))
    pure (gamma_der_pi, gamma_der_pipi, gamma_der_pitau, gamma_der_tautau)
  F.pow (← F.div (F.mul (F.mul (F.mul (Num.ofInt 1000) R) T) (← F.pow gamma_der_pi (Num.ofInt 2))) (F.sub (← F.div (← F.pow (F.sub gamma_der_pi (F.mul tau gamma_der_pitau)) (Num.ofInt 2)) (F.mul (← F.pow tau (Num.ofInt 2)) gamma_der_tautau)) gamma_der_pipi)) (F.lit 0.5)

/-- pyXSteam/Regions.py:971-971 -/
def T1_ph.I1 : List ℤ :=
  [0, 0, 0, 0, 0, 0, 1, 1, 1, 1, 1, 1, 1, 2, 2, 3, 3, 4, 5, 6]

/-- pyXSteam/Regions.py:972-972 -/
def T1_ph.J1 : List ℤ :=
  [0, 1, 2, 6, 22, 32, 0, 1, 2, 3, 4, 10, 32, 10, 32, 10, 32, 32, 32, 32]

/-- pyXSteam/Regions.py:973-994 -/
def T1_ph.n1 : List ℚ :=
  [-238.72489924521, 404.21188637945, 113.49746881718, -5.8457616048039, -1.528548241314e-04,
   -1.0866707695377e-06, -13.391744872602, 43.211039183559, -54.010067170506, 30.535892203916,
   -6.5964749423638, 9.3965400878363e-03, 1.157364750534e-07, -2.5858641282073e-05,
   -4.0644363084799e-09, 6.6456186191635e-08, 8.0670734103027e-11, -9.3477771213947e-13,
   5.8265442020601e-15, -1.5020185953503e-17]

/-- pyXSteam/Regions.py:964-1000 -/
noncomputable def T1_ph (F : FP) (p : Num) (h : Num) : Py Num := do
  let Pi ← F.div p (Num.ofInt 1)
  let eta ← F.div h (Num.ofInt 2500)
  let T := (Num.ofInt 0)
  let T ← forRange 0 20 T fun i T => do
    let T := (F.add T (F.mul (F.mul (F.lit (← idx T1_ph.n1 i)) (← F.pow Pi (Num.ofInt (← idx T1_ph.I1 i)))) (← F.pow (F.add eta (Num.ofInt 1)) (Num.ofInt (← idx T1_ph.J1 i)))))
    pure T
  pure T

/-- pyXSteam/Regions.py:1010-1010 -/
def T1_ps.I1 : List ℤ :=
  [0, 0, 0, 0, 0, 0, 1, 1, 1, 1, 1, 1, 2, 2, 2, 2, 2, 3, 3, 4]

/-- pyXSteam/Regions.py:1011-1011 -/
def T1_ps.J1 : List ℤ :=
  [0, 1, 2, 3, 11, 31, 0, 1, 2, 3, 12, 31, 0, 1, 2, 9, 31, 10, 32, 32]

/-- pyXSteam/Regions.py:1012-1033 -/
def T1_ps.n1 : List ℚ :=
  [174.78268058307, 34.806930892873, 6.5292584978455, 0.33039981775489, -1.9281382923196e-07,
   -2.4909197244573e-23, -0.26107636489332, 0.22592965981586, -0.064256463395226,
   7.8876289270526e-03, 3.5672110607366e-10, 1.7332496994895e-24, 5.6608900654837e-04,
   -3.2635483139717e-04, 4.4778286690632e-05, -5.1322156908507e-10, -4.2522657042207e-26,
   2.6400441360689e-13, 7.8124600459723e-29, -3.0732199903668e-31]

/-- pyXSteam/Regions.py:1003-1039 -/
noncomputable def T1_ps (F : FP) (p : Num) (s : Num) : Py Num := do
  let Pi ← F.div p (Num.ofInt 1)
  let Sigma ← F.div s (Num.ofInt 1)
  let T := (Num.ofInt 0)
  let T ← forRange 0 20 T fun i T => do
    let T := (F.add T (F.mul (F.mul (F.lit (← idx T1_ps.n1 i)) (← F.pow Pi (Num.ofInt (← idx T1_ps.I1 i)))) (← F.pow (F.add Sigma (Num.ofInt 2)) (Num.ofInt (← idx T1_ps.J1 i)))))
    pure T
  pure T

/-- pyXSteam/Regions.py:1051-1051 -/
def p1_hs.I1 : List ℤ :=
  [0, 0, 0, 0, 0, 0, 0, 0, 1, 1, 1, 1, 2, 2, 2, 3, 4, 4, 5]

/-- pyXSteam/Regions.py:1052-1052 -/
def p1_hs.J1 : List ℤ :=
  [0, 1, 2, 4, 5, 6, 8, 14, 0, 1, 4, 6, 0, 1, 10, 4, 1, 4, 0]

/-- pyXSteam/Regions.py:1053-1073 -/
def p1_hs.n1 : List ℚ :=
  [-0.691997014660582, -18.361254878756, -9.28332409297335, 65.9639569909906, -16.2060388912024,
   450.620017338667, 854.68067822417, 6075.23214001162, 32.6487682621856, -26.9408844582931,
   -319.9478483343, -928.35430704332, 30.3634537455249, -65.0540422444146, -4309.9131651613,
   -747.512324096068, 730.000345529245, 1142.84032569021, -436.407041874559]

/-- pyXSteam/Regions.py:1042-1079 -/
noncomputable def p1_hs (F : FP) (h : Num) (s : Num) : Py Num := do
  let eta ← F.div h (Num.ofInt 3400)
  let Sigma ← F.div s (F.lit 7.6)
  let p := (Num.ofInt 0)
  let p ← forRange 0 19 p fun i p => do
    let p := (F.add p (F.mul (F.mul (F.lit (← idx p1_hs.n1 i)) (← F.pow (F.add eta (F.lit 0.05)) (Num.ofInt (← idx p1_hs.I1 i)))) (← F.pow (F.add Sigma (F.lit 0.05)) (Num.ofInt (← idx p1_hs.J1 i)))))
    pure p
  pure (F.mul p (Num.ofInt 100))

end Region1

namespace Region4

/-- pyXSteam/Regions.py:5783-5803 -/
noncomputable def T4_p (F : FP) (p : Num) : Py Num := do
  let beta ← F.pow p (F.lit 0.25)
  let E := (F.add (F.sub (← F.pow beta (Num.ofInt 2)) (F.mul (F.lit 17.073846940092) beta)) (F.lit 14.91510861353))
  let f := (F.sub (F.add (F.mul (F.lit 1167.0521452767) (← F.pow beta (Num.ofInt 2))) (F.mul (F.lit 12020.82470247) beta)) (F.lit 4823.2657361591))
  let G := (F.add (F.sub (F.mul (Num.neg (F.lit 724213.16703206)) (← F.pow beta (Num.ofInt 2))) (F.mul (F.lit 3232555.0322333) beta)) (F.lit 405113.40542057))
  let D ← F.div (F.mul (Num.ofInt 2) G) (F.sub (Num.neg f) (← F.pow (F.sub (← F.pow f (Num.ofInt 2)) (F.mul (F.mul (Num.ofInt 4) E) G)) (F.lit 0.5)))
  F.div (F.sub (F.add (F.lit 650.17534844798) D) (← F.pow (F.sub (← F.pow (F.add (F.lit 650.17534844798) D) (Num.ofInt 2)) (F.mul (Num.ofInt 4) (F.add (Num.neg (F.lit 0.23855557567849)) (F.mul (F.lit 650.17534844798) D)))) (F.lit 0.5))) (Num.ofInt 2)

end Region4

namespace Region1

/-- one pass of the `while` loop; state: Ts, rhos, High_Bound, Low_Bound.
pyXSteam/Regions.py:1092-1109 -/
noncomputable def T1_prho.pass (F : FP) (p : Num) (rho : Num) :
    (Option Num × Num × Num × Num) → Py (Ctl (Option Num × Num × Num × Num))
  | (Ts, rhos, High_Bound, Low_Bound) => do
    if (Num.fabs (F.sub rho rhos)) > (F.lit 0.00001) then do
      let last_rhos := rhos
      let Ts ← F.div (F.add Low_Bound High_Bound) (Num.ofInt 2)
      let rhos ← F.div (Num.ofInt 1) (← Region1.v1_pT F p Ts)
      if Num.feq last_rhos rhos then do
        warn "T1_prho stopped iterating after %d steps because values did not converge"
        pure (.brk ((some Ts), rhos, High_Bound, Low_Bound))
      else do
        let (High_Bound, Low_Bound) ← if rhos < rho then do
          let High_Bound := Ts
          pure (High_Bound, Low_Bound)
        else do
          let Low_Bound := Ts
          pure (High_Bound, Low_Bound)
        pure (.next ((some Ts), rhos, High_Bound, Low_Bound))
    else do
      pure (.brk (Ts, rhos, High_Bound, Low_Bound))

/-- pyXSteam/Regions.py:1082-1110 -/
noncomputable def T1_prho (F : FP) (p : Num) (rho : Num) : Py Num := do
  let Low_Bound := (F.lit 273.15)
  let High_Bound ← Region4.T4_p F p
  let rhos := (Num.ofInt (-1000))
  let (Ts, rhos, High_Bound, Low_Bound) ← whileLoop (Region1.T1_prho.pass F p rho) (none, rhos, High_Bound, Low_Bound)
  getVar Ts

end Region1

namespace Region2

/-- pyXSteam/Regions.py:1126-1170 -/
def v2_pT.Ir : List ℤ :=
  [1, 1, 1, 1, 1, 2, 2, 2, 2, 2, 3, 3, 3, 3, 3, 4, 4, 4, 5, 6, 6, 6, 7, 7, 7, 8, 8, 9, 10, 10,
   10, 16, 16, 18, 20, 20, 20, 21, 22, 23, 24, 24, 24]

/-- pyXSteam/Regions.py:1171-1215 -/
def v2_pT.Jr : List ℤ :=
  [0, 1, 2, 3, 6, 1, 2, 4, 7, 36, 0, 1, 3, 6, 35, 1, 2, 3, 7, 3, 16, 35, 0, 11, 25, 8, 36, 13, 4,
   10, 14, 29, 50, 57, 20, 35, 48, 21, 53, 39, 26, 40, 58]

/-- pyXSteam/Regions.py:1216-1260 -/
def v2_pT.nr : List ℚ :=
  [-1.7731742473213e-03, -0.017834862292358, -0.045996013696365, -0.057581259083432,
   -0.05032527872793, -3.3032641670203e-05, -1.8948987516315e-04, -3.9392777243355e-03,
   -0.043797295650573, -2.6674547914087e-05, 2.0481737692309e-08, 4.3870667284435e-07,
   -3.227767723857e-05, -1.5033924542148e-03, -0.040668253562649, -7.8847309559367e-10,
   1.2790717852285e-08, 4.8225372718507e-07, 2.2922076337661e-06, -1.6714766451061e-11,
   -2.1171472321355e-03, -23.895741934104, -5.905956432427e-18, -1.2621808899101e-06,
   -0.038946842435739, 1.1256211360459e-11, -8.2311340897998, 1.9809712802088e-08,
   1.0406965210174e-19, -1.0234747095929e-13, -1.0018179379511e-09, -8.0882908646985e-11,
   0.10693031879409, -0.33662250574171, 8.9185845355421e-25, 3.0629316876232e-13,
   -4.2002467698208e-06, -5.9056029685639e-26, 3.7826947613457e-06, -1.2768608934681e-15,
   7.3087610595061e-29, 5.5414715350778e-17, -9.436970724121e-07]

/-- pyXSteam/Regions.py:1119-1268 -/
noncomputable def v2_pT (F : FP) (p : Num) (T : Num) : Py Num := do
  let R := (F.lit Constants.SPECIFIC_GAS_CONSTANT)
  let Pi := p
  let tau ← F.div (Num.ofInt 540) T
  let g0_pi ← F.div (Num.ofInt 1) Pi
  let gr_pi := (Num.ofInt 0)
  let gr_pi ← forRange 0 43 gr_pi fun i gr_pi => do
    let gr_pi := (F.add gr_pi (F.mul (F.mul (F.mul (F.lit (← idx v2_pT.nr i)) (Num.ofInt (← idx v2_pT.Ir i))) (← F.pow Pi (Num.ofInt ((← idx v2_pT.Ir i) - 1)))) (← F.pow (F.sub tau (F.lit 0.5)) (Num.ofInt (← idx v2_pT.Jr i)))))
    pure gr_pi
  F.div (F.mul (F.mul (← F.div (F.mul R T) p) Pi) (F.add g0_pi gr_pi)) (Num.ofInt 1000)

/-- pyXSteam/Regions.py:1278-1278 -/
def h2_pT.J0 : List ℤ :=
  [0, 1, -5, -4, -3, -2, -1, 2, 3]

/-- pyXSteam/Regions.py:1279-1289 -/
def h2_pT.n0 : List ℚ :=
  [-9.6927686500217, 10.086655968018, -0.005608791128302, 0.071452738081455, -0.40710498223928,
   1.4240819171444, -4.383951131945, -0.28408632460772, 0.021268463753307]

/-- pyXSteam/Regions.py:1290-1334 -/
def h2_pT.Ir : List ℤ :=
  [1, 1, 1, 1, 1, 2, 2, 2, 2, 2, 3, 3, 3, 3, 3, 4, 4, 4, 5, 6, 6, 6, 7, 7, 7, 8, 8, 9, 10, 10,
   10, 16, 16, 18, 20, 20, 20, 21, 22, 23, 24, 24, 24]

/-- pyXSteam/Regions.py:1335-1379 -/
def h2_pT.Jr : List ℤ :=
  [0, 1, 2, 3, 6, 1, 2, 4, 7, 36, 0, 1, 3, 6, 35, 1, 2, 3, 7, 3, 16, 35, 0, 11, 25, 8, 36, 13, 4,
   10, 14, 29, 50, 57, 20, 35, 48, 21, 53, 39, 26, 40, 58]

/-- pyXSteam/Regions.py:1380-1424 -/
def h2_pT.nr : List ℚ :=
  [-1.7731742473213e-03, -0.017834862292358, -0.045996013696365, -0.057581259083432,
   -0.05032527872793, -3.3032641670203e-05, -1.8948987516315e-04, -3.9392777243355e-03,
   -0.043797295650573, -2.6674547914087e-05, 2.0481737692309e-08, 4.3870667284435e-07,
   -3.227767723857e-05, -1.5033924542148e-03, -0.040668253562649, -7.8847309559367e-10,
   1.2790717852285e-08, 4.8225372718507e-07, 2.2922076337661e-06, -1.6714766451061e-11,
   -2.1171472321355e-03, -23.895741934104, -5.905956432427e-18, -1.2621808899101e-06,
   -0.038946842435739, 1.1256211360459e-11, -8.2311340897998, 1.9809712802088e-08,
   1.0406965210174e-19, -1.0234747095929e-13, -1.0018179379511e-09, -8.0882908646985e-11,
   0.10693031879409, -0.33662250574171, 8.9185845355421e-25, 3.0629316876232e-13,
   -4.2002467698208e-06, -5.9056029685639e-26, 3.7826947613457e-06, -1.2768608934681e-15,
   7.3087610595061e-29, 5.5414715350778e-17, -9.436970724121e-07]

/-- pyXSteam/Regions.py:1271-1434 -/
noncomputable def h2_pT (F : FP) (p : Num) (T : Num) : Py Num := do
  let R := (F.lit Constants.SPECIFIC_GAS_CONSTANT)
  let Pi := p
  let tau ← F.div (Num.ofInt 540) T
  let g0_tau := (Num.ofInt 0)
  let g0_tau ← forRange 0 9 g0_tau fun i g0_tau => do
    let g0_tau := (F.add g0_tau (F.mul (F.mul (F.lit (← idx h2_pT.n0 i)) (Num.ofInt (← idx h2_pT.J0 i))) (← F.pow tau (Num.ofInt ((← idx h2_pT.J0 i) - 1)))))
    pure g0_tau
  let gr_tau := (Num.ofInt 0)
  let gr_tau ← forRange 0 43 gr_tau fun i gr_tau => do
    let gr_tau := (F.add gr_tau (F.mul (F.mul (F.mul (F.lit (← idx h2_pT.nr i)) (← F.pow Pi (Num.ofInt (← idx h2_pT.Ir i)))) (Num.ofInt (← idx h2_pT.Jr i))) (← F.pow (F.sub tau (F.lit 0.5)) (Num.ofInt ((← idx h2_pT.Jr i) - 1)))))
    pure gr_tau
  pure (F.mul (F.mul (F.mul R T) tau) (F.add g0_tau gr_tau))

/-- pyXSteam/Regions.py:1444-1444 -/
def u2_pT.J0 : List ℤ :=
  [0, 1, -5, -4, -3, -2, -1, 2, 3]

/-- pyXSteam/Regions.py:1445-1455 -/
def u2_pT.n0 : List ℚ :=
  [-9.6927686500217, 10.086655968018, -0.005608791128302, 0.071452738081455, -0.40710498223928,
   1.4240819171444, -4.383951131945, -0.28408632460772, 0.021268463753307]

/-- pyXSteam/Regions.py:1456-1500 -/
def u2_pT.Ir : List ℤ :=
  [1, 1, 1, 1, 1, 2, 2, 2, 2, 2, 3, 3, 3, 3, 3, 4, 4, 4, 5, 6, 6, 6, 7, 7, 7, 8, 8, 9, 10, 10,
   10, 16, 16, 18, 20, 20, 20, 21, 22, 23, 24, 24, 24]

/-- pyXSteam/Regions.py:1501-1545 -/
def u2_pT.Jr : List ℤ :=
  [0, 1, 2, 3, 6, 1, 2, 4, 7, 36, 0, 1, 3, 6, 35, 1, 2, 3, 7, 3, 16, 35, 0, 11, 25, 8, 36, 13, 4,
   10, 14, 29, 50, 57, 20, 35, 48, 21, 53, 39, 26, 40, 58]

/-- pyXSteam/Regions.py:1546-1590 -/
def u2_pT.nr : List ℚ :=
  [-1.7731742473213e-03, -0.017834862292358, -0.045996013696365, -0.057581259083432,
   -0.05032527872793, -3.3032641670203e-05, -1.8948987516315e-04, -3.9392777243355e-03,
   -0.043797295650573, -2.6674547914087e-05, 2.0481737692309e-08, 4.3870667284435e-07,
   -3.227767723857e-05, -1.5033924542148e-03, -0.040668253562649, -7.8847309559367e-10,
   1.2790717852285e-08, 4.8225372718507e-07, 2.2922076337661e-06, -1.6714766451061e-11,
   -2.1171472321355e-03, -23.895741934104, -5.905956432427e-18, -1.2621808899101e-06,
   -0.038946842435739, 1.1256211360459e-11, -8.2311340897998, 1.9809712802088e-08,
   1.0406965210174e-19, -1.0234747095929e-13, -1.0018179379511e-09, -8.0882908646985e-11,
   0.10693031879409, -0.33662250574171, 8.9185845355421e-25, 3.0629316876232e-13,
   -4.2002467698208e-06, -5.9056029685639e-26, 3.7826947613457e-06, -1.2768608934681e-15,
   7.3087610595061e-29, 5.5414715350778e-17, -9.436970724121e-07]

/-- pyXSteam/Regions.py:1437-1603 -/
noncomputable def u2_pT (F : FP) (p : Num) (T : Num) : Py Num := do
  let R := (F.lit Constants.SPECIFIC_GAS_CONSTANT)
  let Pi := p
  let tau ← F.div (Num.ofInt 540) T
  let g0_pi ← F.div (Num.ofInt 1) Pi
  let g0_tau := (Num.ofInt 0)
  let g0_tau ← forRange 0 9 g0_tau fun i g0_tau => do
    let g0_tau := (F.add g0_tau (F.mul (F.mul (F.lit (← idx u2_pT.n0 i)) (Num.ofInt (← idx u2_pT.J0 i))) (← F.pow tau (Num.ofInt ((← idx u2_pT.J0 i) - 1)))))
    pure g0_tau
  let gr_pi := (Num.ofInt 0)
  let gr_tau := (Num.ofInt 0)
  let (gr_pi, gr_tau) ← forRange 0 43 (gr_pi, gr_tau) fun i (gr_pi, gr_tau) => do
    let gr_pi := (F.add gr_pi (F.mul (F.mul (F.mul (F.lit (← idx u2_pT.nr i)) (Num.ofInt (← idx u2_pT.Ir i))) (← F.pow Pi (Num.ofInt ((← idx u2_pT.Ir i) - 1)))) (← F.pow (F.sub tau (F.lit 0.5)) (Num.ofInt (← idx u2_pT.Jr i)))))
    let gr_tau := (F.add gr_tau (F.mul (F.mul (F.mul (F.lit (← idx u2_pT.nr i)) (← F.pow Pi (Num.ofInt (← idx u2_pT.Ir i)))) (Num.ofInt (← idx u2_pT.Jr i))) (← F.pow (F.sub tau (F.lit 0.5)) (Num.ofInt ((← idx u2_pT.Jr i) - 1)))))
    pure (gr_pi, gr_tau)
  pure (F.mul (F.mul R T) (F.sub (F.mul tau (F.add g0_tau gr_tau)) (F.mul Pi (F.add g0_pi gr_pi))))

/-- pyXSteam/Regions.py:1613-1613 -/
def s2_pT.J0 : List ℤ :=
  [0, 1, -5, -4, -3, -2, -1, 2, 3]

/-- pyXSteam/Regions.py:1614-1624 -/
def s2_pT.n0 : List ℚ :=
  [-9.6927686500217, 10.086655968018, -0.005608791128302, 0.071452738081455, -0.40710498223928,
   1.4240819171444, -4.383951131945, -0.28408632460772, 0.021268463753307]

/-- pyXSteam/Regions.py:1625-1669 -/
def s2_pT.Ir : List ℤ :=
  [1, 1, 1, 1, 1, 2, 2, 2, 2, 2, 3, 3, 3, 3, 3, 4, 4, 4, 5, 6, 6, 6, 7, 7, 7, 8, 8, 9, 10, 10,
   10, 16, 16, 18, 20, 20, 20, 21, 22, 23, 24, 24, 24]

/-- pyXSteam/Regions.py:1670-1714 -/
def s2_pT.Jr : List ℤ :=
  [0, 1, 2, 3, 6, 1, 2, 4, 7, 36, 0, 1, 3, 6, 35, 1, 2, 3, 7, 3, 16, 35, 0, 11, 25, 8, 36, 13, 4,
   10, 14, 29, 50, 57, 20, 35, 48, 21, 53, 39, 26, 40, 58]

/-- pyXSteam/Regions.py:1715-1759 -/
def s2_pT.nr : List ℚ :=
  [-1.7731742473213e-03, -0.017834862292358, -0.045996013696365, -0.057581259083432,
   -0.05032527872793, -3.3032641670203e-05, -1.8948987516315e-04, -3.9392777243355e-03,
   -0.043797295650573, -2.6674547914087e-05, 2.0481737692309e-08, 4.3870667284435e-07,
   -3.227767723857e-05, -1.5033924542148e-03, -0.040668253562649, -7.8847309559367e-10,
   1.2790717852285e-08, 4.8225372718507e-07, 2.2922076337661e-06, -1.6714766451061e-11,
   -2.1171472321355e-03, -23.895741934104, -5.905956432427e-18, -1.2621808899101e-06,
   -0.038946842435739, 1.1256211360459e-11, -8.2311340897998, 1.9809712802088e-08,
   1.0406965210174e-19, -1.0234747095929e-13, -1.0018179379511e-09, -8.0882908646985e-11,
   0.10693031879409, -0.33662250574171, 8.9185845355421e-25, 3.0629316876232e-13,
   -4.2002467698208e-06, -5.9056029685639e-26, 3.7826947613457e-06, -1.2768608934681e-15,
   7.3087610595061e-29, 5.5414715350778e-17, -9.436970724121e-07]

/-- pyXSteam/Regions.py:1606-1773 -/
noncomputable def s2_pT (F : FP) (p : Num) (T : Num) : Py Num := do
  let R := (F.lit Constants.SPECIFIC_GAS_CONSTANT)
  let Pi := p
  let tau ← F.div (Num.ofInt 540) T
  let g0 ← F.log Pi
  let g0_tau := (Num.ofInt 0)
  let (g0, g0_tau) ← forRange 0 9 (g0, g0_tau) fun i (g0, g0_tau) => do
    let g0 := (F.add g0 (F.mul (F.lit (← idx s2_pT.n0 i)) (← F.pow tau (Num.ofInt (← idx s2_pT.J0 i)))))
    let g0_tau := (F.add g0_tau (F.mul (F.mul (F.lit (← idx s2_pT.n0 i)) (Num.ofInt (← idx s2_pT.J0 i))) (← F.pow tau (Num.ofInt ((← idx s2_pT.J0 i) - 1)))))
    pure (g0, g0_tau)
  let gr := (Num.ofInt 0)
  let gr_tau := (Num.ofInt 0)
  let (gr, gr_tau) ← forRange 0 43 (gr, gr_tau) fun i (gr, gr_tau) => do
    let gr := (F.add gr (F.mul (F.mul (F.lit (← idx s2_pT.nr i)) (← F.pow Pi (Num.ofInt (← idx s2_pT.Ir i)))) (← F.pow (F.sub tau (F.lit 0.5)) (Num.ofInt (← idx s2_pT.Jr i)))))
    let gr_tau := (F.add gr_tau (F.mul (F.mul (F.mul (F.lit (← idx s2_pT.nr i)) (← F.pow Pi (Num.ofInt (← idx s2_pT.Ir i)))) (Num.ofInt (← idx s2_pT.Jr i))) (← F.pow (F.sub tau (F.lit 0.5)) (Num.ofInt ((← idx s2_pT.Jr i) - 1)))))
    pure (gr, gr_tau)
  pure (F.mul R (F.sub (F.mul tau (F.add g0_tau gr_tau)) (F.add g0 gr)))

/-- pyXSteam/Regions.py:1783-1783 -/
def Cp2_pT.J0 : List ℤ :=
  [0, 1, -5, -4, -3, -2, -1, 2, 3]

/-- pyXSteam/Regions.py:1784-1794 -/
def Cp2_pT.n0 : List ℚ :=
  [-9.6927686500217, 10.086655968018, -0.005608791128302, 0.071452738081455, -0.40710498223928,
   1.4240819171444, -4.383951131945, -0.28408632460772, 0.021268463753307]

/-- pyXSteam/Regions.py:1795-1839 -/
def Cp2_pT.Ir : List ℤ :=
  [1, 1, 1, 1, 1, 2, 2, 2, 2, 2, 3, 3, 3, 3, 3, 4, 4, 4, 5, 6, 6, 6, 7, 7, 7, 8, 8, 9, 10, 10,
   10, 16, 16, 18, 20, 20, 20, 21, 22, 23, 24, 24, 24]

/-- pyXSteam/Regions.py:1840-1884 -/
def Cp2_pT.Jr : List ℤ :=
  [0, 1, 2, 3, 6, 1, 2, 4, 7, 36, 0, 1, 3, 6, 35, 1, 2, 3, 7, 3, 16, 35, 0, 11, 25, 8, 36, 13, 4,
   10, 14, 29, 50, 57, 20, 35, 48, 21, 53, 39, 26, 40, 58]

/-- pyXSteam/Regions.py:1885-1929 -/
def Cp2_pT.nr : List ℚ :=
  [-1.7731742473213e-03, -0.017834862292358, -0.045996013696365, -0.057581259083432,
   -0.05032527872793, -3.3032641670203e-05, -1.8948987516315e-04, -3.9392777243355e-03,
   -0.043797295650573, -2.6674547914087e-05, 2.0481737692309e-08, 4.3870667284435e-07,
   -3.227767723857e-05, -1.5033924542148e-03, -0.040668253562649, -7.8847309559367e-10,
   1.2790717852285e-08, 4.8225372718507e-07, 2.2922076337661e-06, -1.6714766451061e-11,
   -2.1171472321355e-03, -23.895741934104, -5.905956432427e-18, -1.2621808899101e-06,
   -0.038946842435739, 1.1256211360459e-11, -8.2311340897998, 1.9809712802088e-08,
   1.0406965210174e-19, -1.0234747095929e-13, -1.0018179379511e-09, -8.0882908646985e-11,
   0.10693031879409, -0.33662250574171, 8.9185845355421e-25, 3.0629316876232e-13,
   -4.2002467698208e-06, -5.9056029685639e-26, 3.7826947613457e-06, -1.2768608934681e-15,
   7.3087610595061e-29, 5.5414715350778e-17, -9.436970724121e-07]

/-- pyXSteam/Regions.py:1776-1941 -/
noncomputable def Cp2_pT (F : FP) (p : Num) (T : Num) : Py Num := do
  let R := (F.lit Constants.SPECIFIC_GAS_CONSTANT)
  let Pi := p
  let tau ← F.div (Num.ofInt 540) T
  let g0_tautau := (Num.ofInt 0)
  let g0_tautau ← forRange 0 9 g0_tautau fun i g0_tautau => do
    let g0_tautau := (F.add g0_tautau (F.mul (F.mul (F.mul (F.lit (← idx Cp2_pT.n0 i)) (Num.ofInt (← idx Cp2_pT.J0 i))) (Num.ofInt ((← idx Cp2_pT.J0 i) - 1))) (← F.pow tau (Num.ofInt ((← idx Cp2_pT.J0 i) - 2)))))
    pure g0_tautau
  let gr_tautau := (Num.ofInt 0)
  let gr_tautau ← forRange 0 43 gr_tautau fun i gr_tautau => do
    let gr_tautau := (F.add gr_tautau (F.mul (F.mul (F.mul (F.mul (F.lit (← idx Cp2_pT.nr i)) (← F.pow Pi (Num.ofInt (← idx Cp2_pT.Ir i)))) (Num.ofInt (← idx Cp2_pT.Jr i))) (Num.ofInt ((← idx Cp2_pT.Jr i) - 1))) (← F.pow (F.sub tau (F.lit 0.5)) (Num.ofInt ((← idx Cp2_pT.Jr i) - 2)))))
    pure gr_tautau
  pure (F.mul (F.mul (Num.neg R) (← F.pow tau (Num.ofInt 2))) (F.add g0_tautau gr_tautau))

/-- pyXSteam/Regions.py:1951-1951 -/
def Cv2_pT.J0 : List ℤ :=
  [0, 1, -5, -4, -3, -2, -1, 2, 3]

/-- pyXSteam/Regions.py:1952-1962 -/
def Cv2_pT.n0 : List ℚ :=
  [-9.6927686500217, 10.086655968018, -0.005608791128302, 0.071452738081455, -0.40710498223928,
   1.4240819171444, -4.383951131945, -0.28408632460772, 0.021268463753307]

/-- pyXSteam/Regions.py:1963-2007 -/
def Cv2_pT.Ir : List ℤ :=
  [1, 1, 1, 1, 1, 2, 2, 2, 2, 2, 3, 3, 3, 3, 3, 4, 4, 4, 5, 6, 6, 6, 7, 7, 7, 8, 8, 9, 10, 10,
   10, 16, 16, 18, 20, 20, 20, 21, 22, 23, 24, 24, 24]

/-- pyXSteam/Regions.py:2008-2052 -/
def Cv2_pT.Jr : List ℤ :=
  [0, 1, 2, 3, 6, 1, 2, 4, 7, 36, 0, 1, 3, 6, 35, 1, 2, 3, 7, 3, 16, 35, 0, 11, 25, 8, 36, 13, 4,
   10, 14, 29, 50, 57, 20, 35, 48, 21, 53, 39, 26, 40, 58]

/-- pyXSteam/Regions.py:2053-2097 -/
def Cv2_pT.nr : List ℚ :=
  [-1.7731742473213e-03, -0.017834862292358, -0.045996013696365, -0.057581259083432,
   -0.05032527872793, -3.3032641670203e-05, -1.8948987516315e-04, -3.9392777243355e-03,
   -0.043797295650573, -2.6674547914087e-05, 2.0481737692309e-08, 4.3870667284435e-07,
   -3.227767723857e-05, -1.5033924542148e-03, -0.040668253562649, -7.8847309559367e-10,
   1.2790717852285e-08, 4.8225372718507e-07, 2.2922076337661e-06, -1.6714766451061e-11,
   -2.1171472321355e-03, -23.895741934104, -5.905956432427e-18, -1.2621808899101e-06,
   -0.038946842435739, 1.1256211360459e-11, -8.2311340897998, 1.9809712802088e-08,
   1.0406965210174e-19, -1.0234747095929e-13, -1.0018179379511e-09, -8.0882908646985e-11,
   0.10693031879409, -0.33662250574171, 8.9185845355421e-25, 3.0629316876232e-13,
   -4.2002467698208e-06, -5.9056029685639e-26, 3.7826947613457e-06, -1.2768608934681e-15,
   7.3087610595061e-29, 5.5414715350778e-17, -9.436970724121e-07]

/-- pyXSteam/Regions.py:1944-2123 -/
noncomputable def Cv2_pT (F : FP) (p : Num) (T : Num) : Py Num := do
  let R := (F.lit Constants.SPECIFIC_GAS_CONSTANT)
  let Pi := p
  let tau ← F.div (Num.ofInt 540) T
  let g0_tautau := (Num.ofInt 0)
  let g0_tautau ← forRange 0 9 g0_tautau fun i g0_tautau => do
    let g0_tautau := (F.add g0_tautau (F.mul (F.mul (F.mul (F.lit (← idx Cv2_pT.n0 i)) (Num.ofInt (← idx Cv2_pT.J0 i))) (Num.ofInt ((← idx Cv2_pT.J0 i) - 1))) (← F.pow tau (Num.ofInt ((← idx Cv2_pT.J0 i) - 2)))))
    pure g0_tautau
  let gr_pi := (Num.ofInt 0)
  let gr_pitau := (Num.ofInt 0)
  let gr_pipi := (Num.ofInt 0)
  let gr_tautau := (Num.ofInt 0)
  let (gr_pi, gr_pipi, gr_pitau, gr_tautau) ← forRange 0 43 (gr_pi, gr_pipi, gr_pitau, gr_tautau) fun i (gr_pi, gr_pipi, gr_pitau, gr_tautau) => do
    let gr_pi := (F.add gr_pi (F.mul (F.mul (F.mul (F.lit (← idx Cv2_pT.nr i)) (Num.ofInt (← idx Cv2_pT.Ir i))) (← F.pow Pi (Num.ofInt ((← idx Cv2_pT.Ir i) - 1)))) (← F.pow (F.sub tau (F.lit 0.5)) (Num.ofInt (← idx Cv2_pT.Jr i)))))
    let gr_pipi := (F.add gr_pipi (F.mul (F.mul (F.mul (F.mul (F.lit (← idx Cv2_pT.nr i)) (Num.ofInt (← idx Cv2_pT.Ir i))) (Num.ofInt ((← idx Cv2_pT.Ir i) - 1))) (← F.pow Pi (Num.ofInt ((← idx Cv2_pT.Ir i) - 2)))) (← F.pow (F.sub tau (F.lit 0.5)) (Num.ofInt (← idx Cv2_pT.Jr i)))))
    let gr_pitau := (F.add gr_pitau (F.mul (F.mul (F.mul (F.mul (F.lit (← idx Cv2_pT.nr i)) (Num.ofInt (← idx Cv2_pT.Ir i))) (← F.pow Pi (Num.ofInt ((← idx Cv2_pT.Ir i) - 1)))) (Num.ofInt (← idx Cv2_pT.Jr i))) (← F.pow (F.sub tau (F.lit 0.5)) (Num.ofInt ((← idx Cv2_pT.Jr i) - 1)))))
    let gr_tautau := (F.add gr_tautau (F.mul (F.mul (F.mul (F.mul (F.lit (← idx Cv2_pT.nr i)) (← F.pow Pi (Num.ofInt (← idx Cv2_pT.Ir i)))) (Num.ofInt (← idx Cv2_pT.Jr i))) (Num.ofInt ((← idx Cv2_pT.Jr i) - 1))) (← F.pow (F.sub tau (F.lit 0.5)) (Num.ofInt ((← idx Cv2_pT.Jr i) - 2)))))
    pure (gr_pi, gr_pipi, gr_pitau, gr_tautau)
  pure (F.mul R (F.sub (F.mul (Num.neg (← F.pow tau (Num.ofInt 2))) (F.add g0_tautau gr_tautau)) (← F.div (← F.pow (F.sub (F.add (Num.ofInt 1) (F.mul Pi gr_pi)) (F.mul (F.mul tau Pi) gr_pitau)) (Num.ofInt 2)) (F.sub (Num.ofInt 1) (F.mul (← F.pow Pi (Num.ofInt 2)) gr_pipi)))))

/-- pyXSteam/Regions.py:2133-2133 -/
def w2_pT.J0 : List ℤ :=
  [0, 1, -5, -4, -3, -2, -1, 2, 3]

/-- pyXSteam/Regions.py:2134-2144 -/
def w2_pT.n0 : List ℚ :=
  [-9.6927686500217, 10.086655968018, -0.005608791128302, 0.071452738081455, -0.40710498223928,
   1.4240819171444, -4.383951131945, -0.28408632460772, 0.021268463753307]

/-- pyXSteam/Regions.py:2145-2189 -/
def w2_pT.Ir : List ℤ :=
  [1, 1, 1, 1, 1, 2, 2, 2, 2, 2, 3, 3, 3, 3, 3, 4, 4, 4, 5, 6, 6, 6, 7, 7, 7, 8, 8, 9, 10, 10,
   10, 16, 16, 18, 20, 20, 20, 21, 22, 23, 24, 24, 24]

/-- pyXSteam/Regions.py:2190-2234 -/
def w2_pT.Jr : List ℤ :=
  [0, 1, 2, 3, 6, 1, 2, 4, 7, 36, 0, 1, 3, 6, 35, 1, 2, 3, 7, 3, 16, 35, 0, 11, 25, 8, 36, 13, 4,
   10, 14, 29, 50, 57, 20, 35, 48, 21, 53, 39, 26, 40, 58]

/-- pyXSteam/Regions.py:2235-2279 -/
def w2_pT.nr : List ℚ :=
  [-1.7731742473213e-03, -0.017834862292358, -0.045996013696365, -0.057581259083432,
   -0.05032527872793, -3.3032641670203e-05, -1.8948987516315e-04, -3.9392777243355e-03,
   -0.043797295650573, -2.6674547914087e-05, 2.0481737692309e-08, 4.3870667284435e-07,
   -3.227767723857e-05, -1.5033924542148e-03, -0.040668253562649, -7.8847309559367e-10,
   1.2790717852285e-08, 4.8225372718507e-07, 2.2922076337661e-06, -1.6714766451061e-11,
   -2.1171472321355e-03, -23.895741934104, -5.905956432427e-18, -1.2621808899101e-06,
   -0.038946842435739, 1.1256211360459e-11, -8.2311340897998, 1.9809712802088e-08,
   1.0406965210174e-19, -1.0234747095929e-13, -1.0018179379511e-09, -8.0882908646985e-11,
   0.10693031879409, -0.33662250574171, 8.9185845355421e-25, 3.0629316876232e-13,
   -4.2002467698208e-06, -5.9056029685639e-26, 3.7826947613457e-06, -1.2768608934681e-15,
   7.3087610595061e-29, 5.5414715350778e-17, -9.436970724121e-07]

/-- pyXSteam/Regions.py:2126-2312 -/
noncomputable def w2_pT (F : FP) (p : Num) (T : Num) : Py Num := do
  let R := (F.lit Constants.SPECIFIC_GAS_CONSTANT)
  let Pi := p
  let tau ← F.div (Num.ofInt 540) T
  let g0_tautau := (Num.ofInt 0)
  let g0_tautau ← forRange 0 9 g0_tautau fun i g0_tautau => do
    let g0_tautau := (F.add g0_tautau (F.mul (F.mul (F.mul (F.lit (← idx w2_pT.n0 i)) (Num.ofInt (← idx w2_pT.J0 i))) (Num.ofInt ((← idx w2_pT.J0 i) - 1))) (← F.pow tau (Num.ofInt ((← idx w2_pT.J0 i) - 2)))))
    pure g0_tautau
  let gr_pi := (Num.ofInt 0)
  let gr_pitau := (Num.ofInt 0)
  let gr_pipi := (Num.ofInt 0)
  let gr_tautau := (Num.ofInt 0)
  let (gr_pi, gr_pipi, gr_pitau, gr_tautau) ← forRange 0 43 (gr_pi, gr_pipi, gr_pitau, gr_tautau) fun i (gr_pi, gr_pipi, gr_pitau, gr_tautau) => do
    let gr_pi := (F.add gr_pi (F.mul (F.mul (F.mul (F.lit (← idx w2_pT.nr i)) (Num.ofInt (← idx w2_pT.Ir i))) (← F.pow Pi (Num.ofInt ((← idx w2_pT.Ir i) - 1)))) (← F.pow (F.sub tau (F.lit 0.5)) (Num.ofInt (← idx w2_pT.Jr i)))))
    let gr_pipi := (F.add gr_pipi (F.mul (F.mul (F.mul (F.mul (F.lit (← idx w2_pT.nr i)) (Num.ofInt (← idx w2_pT.Ir i))) (Num.ofInt ((← idx w2_pT.Ir i) - 1))) (← F.pow Pi (Num.ofInt ((← idx w2_pT.Ir i) - 2)))) (← F.pow (F.sub tau (F.lit 0.5)) (Num.ofInt (← idx w2_pT.Jr i)))))
    let gr_pitau := (F.add gr_pitau (F.mul (F.mul (F.mul (F.mul (F.lit (← idx w2_pT.nr i)) (Num.ofInt (← idx w2_pT.Ir i))) (← F.pow Pi (Num.ofInt ((← idx w2_pT.Ir i) - 1)))) (Num.ofInt (← idx w2_pT.Jr i))) (← F.pow (F.sub tau (F.lit 0.5)) (Num.ofInt ((← idx w2_pT.Jr i) - 1)))))
    let gr_tautau := (F.add gr_tautau (F.mul (F.mul (F.mul (F.mul (F.lit (← idx w2_pT.nr i)) (← F.pow Pi (Num.ofInt (← idx w2_pT.Ir i)))) (Num.ofInt (← idx w2_pT.Jr i))) (Num.ofInt ((← idx w2_pT.Jr i) - 1))) (← F.pow (F.sub tau (F.lit 0.5)) (Num.ofInt ((← idx w2_pT.Jr i) - 2)))))
    pure (gr_pi, gr_pipi, gr_pitau, gr_tautau)
  F.pow (← F.div (F.mul (F.mul (F.mul (Num.ofInt 1000) R) T) (F.add (F.add (Num.ofInt 1) (F.mul (F.mul (Num.ofInt 2) Pi) gr_pi)) (F.mul (← F.pow Pi (Num.ofInt 2)) (← F.pow gr_pi (Num.ofInt 2))))) (F.add (F.sub (Num.ofInt 1) (F.mul (← F.pow Pi (Num.ofInt 2)) gr_pipi)) (← F.div (← F.pow (F.sub (F.add (Num.ofInt 1) (F.mul Pi gr_pi)) (F.mul (F.mul tau Pi) gr_pitau)) (Num.ofInt 2)) (F.mul (← F.pow tau (Num.ofInt 2)) (F.add g0_tautau gr_tautau))))) (F.lit 0.5)

/-- pyXSteam/Regions.py:2330-2365 -/
def T2_ph.Ji : List ℤ :=
  [0, 1, 2, 3, 7, 20, 0, 1, 2, 3, 7, 9, 11, 18, 44, 0, 2, 7, 36, 38, 40, 42, 44, 24, 44, 12, 32,
   44, 32, 36, 42, 34, 44, 28]

/-- pyXSteam/Regions.py:2366-2401 -/
def T2_ph.Ii : List ℤ :=
  [0, 0, 0, 0, 0, 0, 1, 1, 1, 1, 1, 1, 1, 1, 1, 2, 2, 2, 2, 2, 2, 2, 2, 3, 3, 4, 4, 4, 5, 5, 5,
   6, 6, 7]

/-- pyXSteam/Regions.py:2402-2437 -/
def T2_ph.ni : List ℚ :=
  [1089.8952318288, 849.51654495535, -107.81748091826, 33.153654801263, -7.4232016790248,
   11.765048724356, 1.844574935579, -4.1792700549624, 6.2478196935812, -17.344563108114,
   -200.58176862096, 271.96065473796, -455.11318285818, 3091.9688604755, 252266.40357872,
   -6.1707422868339e-03, -0.31078046629583, 11.670873077107, 128127984.04046, -985549096.23276,
   2822454697.3002, -3594897141.0703, 1722734991.3197, -13551.334240775, 12848734.66465,
   1.3865724283226, 235988.32556514, -13105236.545054, 7399.9835474766, -551966.9703006,
   3715408.5996233, 19127.72923966, -415351.64835634, -62.459855192507]

/-- pyXSteam/Regions.py:2445-2484 -/
def T2_ph.Ji_2 : List ℤ :=
  [0, 1, 2, 12, 18, 24, 28, 40, 0, 2, 6, 12, 18, 24, 28, 40, 2, 8, 18, 40, 1, 2, 12, 24, 2, 12,
   18, 24, 28, 40, 18, 24, 40, 28, 2, 28, 1, 40]

/-- pyXSteam/Regions.py:2485-2524 -/
def T2_ph.Ii_2 : List ℤ :=
  [0, 0, 0, 0, 0, 0, 0, 0, 1, 1, 1, 1, 1, 1, 1, 1, 2, 2, 2, 2, 3, 3, 3, 3, 4, 4, 4, 4, 4, 4, 5,
   5, 5, 6, 7, 7, 9, 9]

/-- pyXSteam/Regions.py:2525-2564 -/
def T2_ph.ni_2 : List ℚ :=
  [1489.5041079516, 743.07798314034, -97.708318797837, 2.4742464705674, -0.63281320016026,
   1.1385952129658, -0.47811863648625, 8.5208123431544e-03, 0.93747147377932, 3.3593118604916,
   3.3809355601454, 0.16844539671904, 0.73875745236695, -0.47128737436186, 0.15020273139707,
   -0.002176411421975, -0.021810755324761, -0.10829784403677, -0.046333324635812,
   7.1280351959551e-05, 1.1032831789999e-04, 1.8955248387902e-04, 3.0891541160537e-03,
   1.3555504554949e-03, 2.8640237477456e-07, -1.0779857357512e-05, -7.6462712454814e-05,
   1.4052392818316e-05, -3.1083814331434e-05, -1.0302738212103e-06, 2.821728163504e-07,
   1.2704902271945e-06, 7.3803353468292e-08, -1.1030139238909e-08, -8.1456365207833e-14,
   -2.5180545682962e-11, -1.7565233969407e-18, 8.6934156344163e-15]

/-- pyXSteam/Regions.py:2573-2597 -/
def T2_ph.Ji_3 : List ℤ :=
  [0, 4, 0, 2, 0, 2, 0, 1, 0, 2, 0, 1, 4, 8, 4, 0, 1, 4, 10, 12, 16, 20, 22]

/-- pyXSteam/Regions.py:2598-2622 -/
def T2_ph.Ii_3 : List ℤ :=
  [-7, -7, -6, -6, -5, -5, -2, -2, -1, -1, 0, 0, 1, 1, 2, 6, 6, 6, 6, 6, 6, 6, 6]

/-- pyXSteam/Regions.py:2623-2647 -/
def T2_ph.ni_3 : List ℚ :=
  [-3236839855524.2, 7326335090218.1, 358250899454.47, -583401318515.9, -10783068217.47,
   20825544563.171, 610747.83564516, 859777.2253558, -25745.72360417, 31081.088422714,
   1208.2315865936, 482.19755109255, 3.7966001272486, -10.842984880077, -0.04536417267666,
   1.4559115658698e-13, 1.126159740723e-12, -1.7804982240686e-11, 1.2324579690832e-07,
   -1.1606921130984e-06, 2.7846367088554e-05, -5.9270038474176e-04, 1.2918582991878e-03]

/-- pyXSteam/Regions.py:2315-2652 -/
noncomputable def T2_ph (F : FP) (p : Num) (h : Num) : Py Num := do
  let sub_reg ← if p < (Num.ofInt 4) then do
    let sub_reg : ℤ := 1
    pure sub_reg
  else do
    let sub_reg ← if p < (F.add (F.sub (F.lit 905.84278514723) (F.mul (F.lit 0.67955786399241) h)) (F.mul (F.lit 1.2809002730136e-04) (← F.pow h (Num.ofInt 2)))) then do
      let sub_reg : ℤ := 2
      pure sub_reg
    else do
      let sub_reg : ℤ := 3
      pure sub_reg
    pure sub_reg
  let Ts ← if sub_reg = 1 then do
    let Ts := (Num.ofInt 0)
    let hs ← F.div h (Num.ofInt 2000)
    let Ts ← forRange 0 34 Ts fun i Ts => do
      let Ts := (F.add Ts (F.mul (F.mul (F.lit (← idx T2_ph.ni i)) (← F.pow p (Num.ofInt (← idx T2_ph.Ii i)))) (← F.pow (F.sub hs (F.lit 2.1)) (Num.ofInt (← idx T2_ph.Ji i)))))
      pure Ts
    pure Ts
  else do
    let Ts ← if sub_reg = 2 then do
      let Ts := (Num.ofInt 0)
      let hs ← F.div h (Num.ofInt 2000)
      let Ts ← forRange 0 38 Ts fun i Ts => do
        let Ts := (F.add Ts (F.mul (F.mul (F.lit (← idx T2_ph.ni_2 i)) (← F.pow (F.sub p (Num.ofInt 2)) (Num.ofInt (← idx T2_ph.Ii_2 i)))) (← F.pow (F.sub hs (F.lit 2.6)) (Num.ofInt (← idx T2_ph.Ji_2 i)))))
        pure Ts
      pure Ts
    else do
      let Ts := (Num.ofInt 0)
      let hs ← F.div h (Num.ofInt 2000)
      let Ts ← forRange 0 23 Ts fun i Ts => do
        let Ts := (F.add Ts (F.mul (F.mul (F.lit (← idx T2_ph.ni_3 i)) (← F.pow (F.add p (Num.ofInt 25)) (Num.ofInt (← idx T2_ph.Ii_3 i)))) (← F.pow (F.sub hs (F.lit 1.8)) (Num.ofInt (← idx T2_ph.Ji_3 i)))))
        pure Ts
      pure Ts
    pure Ts
  pure Ts

/-- pyXSteam/Regions.py:2672-2719 -/
def T2_ps.Ii : List ℚ :=
  [-1.5, -1.5, -1.5, -1.5, -1.5, -1.5, -1.25, -1.25, -1.25, -1, -1, -1, -1, -1, -1, -0.75, -0.75,
   -0.5, -0.5, -0.5, -0.5, -0.25, -0.25, -0.25, -0.25, 0.25, 0.25, 0.25, 0.25, 0.5, 0.5, 0.5, 0.5,
   0.5, 0.5, 0.5, 0.75, 0.75, 0.75, 0.75, 1, 1, 1.25, 1.25, 1.5, 1.5]

/-- pyXSteam/Regions.py:2720-2767 -/
def T2_ps.Ji : List ℤ :=
  [-24, -23, -19, -13, -11, -10, -19, -15, -6, -26, -21, -17, -16, -9, -8, -15, -14, -26, -13,
   -9, -7, -27, -25, -11, -6, 1, 4, 8, 11, 0, 1, 5, 6, 10, 14, 16, 0, 4, 9, 17, 7, 18, 3, 15, 5,
   18]

/-- pyXSteam/Regions.py:2768-2815 -/
def T2_ps.ni : List ℚ :=
  [-392359.83861984, 515265.7382727, 40482.443161048, -321.93790923902, 96.961424218694,
   -22.867846371773, -449429.14124357, -5011.8336020166, 0.35684463560015, 44235.33584819,
   -13673.388811708, 421632.60207864, 22516.925837475, 474.42144865646, -149.31130797647,
   -197811.26320452, -23554.39947076, -19070.616302076, 55375.669883164, 3829.3691437363,
   -603.91860580567, 1936.3102620331, 4266.064369861, -5978.0638872718, -704.01463926862,
   338.36784107553, 20.862786635187, 0.033834172656196, -4.3124428414893e-05, 166.53791356412,
   -139.86292055898, -0.78849547999872, 0.072132411753872, -5.9754839398283e-03,
   -1.2141358953904e-05, 2.3227096733871e-07, -10.538463566194, 2.0718925496502,
   -0.072193155260427, 2.074988708112e-07, -0.018340657911379, 2.9036272348696e-07,
   0.21037527893619, 2.5681239729999e-04, -0.012799002933781, -8.2198102652018e-06]

/-- pyXSteam/Regions.py:2825-2870 -/
def T2_ps.Ii_2 : List ℤ :=
  [-6, -6, -5, -5, -4, -4, -4, -3, -3, -3, -3, -2, -2, -2, -2, -1, -1, -1, -1, -1, 0, 0, 0, 0, 0,
   0, 0, 1, 1, 1, 1, 1, 1, 2, 2, 2, 3, 3, 3, 4, 4, 5, 5, 5]

/-- pyXSteam/Regions.py:2871-2916 -/
def T2_ps.Ji_2 : List ℤ :=
  [0, 11, 0, 11, 0, 1, 11, 0, 1, 11, 12, 0, 1, 6, 10, 0, 1, 5, 8, 9, 0, 1, 2, 4, 5, 6, 9, 0, 1,
   2, 3, 7, 8, 0, 1, 5, 0, 1, 3, 0, 1, 0, 1, 2]

/-- pyXSteam/Regions.py:2917-2962 -/
def T2_ps.ni_2 : List ℚ :=
  [316876.65083497, 20.864175881858, -398593.99803599, -21.816058518877, 223697.85194242,
   -2784.1703445817, 9.920743607148, -75197.512299157, 2970.8605951158, -3.4406878548526,
   0.38815564249115, 17511.29508575, -1423.7112854449, 1.0943803364167, 0.89971619308495,
   -3375.9740098958, 471.62885818355, -1.9188241993679, 0.41078580492196, -0.33465378172097,
   1387.0034777505, -406.63326195838, 41.72734715961, 2.1932549434532, -1.0320050009077,
   0.35882943516703, 5.2511453726066e-03, 12.838916450705, -2.8642437219381, 0.56912683664855,
   -0.099962954584931, -3.2632037778459e-03, 2.3320922576723e-04, -0.1533480985745,
   0.029072288239902, 3.7534702741167e-04, 1.7296691702411e-03, -3.8556050844504e-04,
   -3.5017712292608e-05, -1.4566393631492e-05, 5.6420857267269e-06, 4.1286150074605e-08,
   -2.0684671118824e-08, 1.6409393674725e-09]

/-- pyXSteam/Regions.py:2971-3002 -/
def T2_ps.Ii_3 : List ℤ :=
  [-2, -2, -1, 0, 0, 0, 0, 1, 1, 1, 1, 2, 2, 2, 3, 3, 3, 4, 4, 4, 5, 5, 5, 6, 6, 7, 7, 7, 7, 7]

/-- pyXSteam/Regions.py:3003-3034 -/
def T2_ps.Ji_3 : List ℤ :=
  [0, 1, 0, 0, 1, 2, 3, 0, 1, 3, 4, 0, 1, 2, 0, 1, 5, 0, 1, 4, 0, 1, 2, 0, 1, 0, 1, 3, 4, 5]

/-- pyXSteam/Regions.py:3035-3066 -/
def T2_ps.ni_3 : List ℚ :=
  [909.68501005365, 2404.566708842, -591.6232638713, 541.45404128074, -270.98308411192,
   979.76525097926, -469.66772959435, 14.399274604723, -19.104204230429, 5.3299167111971,
   -21.252975375934, -0.3114733441376, 0.60334840894623, -0.042764839702509, 5.8185597255259e-03,
   -0.014597008284753, 5.6631175631027e-03, -7.6155864584577e-05, 2.2440342919332e-04,
   -1.2561095013413e-05, 6.3323132660934e-07, -2.0541989675375e-06, 3.6405370390082e-08,
   -2.9759897789215e-09, 1.0136618529763e-08, 5.9925719692351e-12, -2.0677870105164e-11,
   -2.0874278181886e-11, 1.0162166825089e-10, -1.6429828281347e-10]

/-- pyXSteam/Regions.py:2655-3072 -/
noncomputable def T2_ps (F : FP) (p : Num) (s : Num) : Py Num := do
  let sub_reg ← if p < (Num.ofInt 4) then do
    let sub_reg : ℤ := 1
    pure sub_reg
  else do
    let sub_reg ← if s < (F.lit 5.85) then do
      let sub_reg : ℤ := 3
      pure sub_reg
    else do
      let sub_reg : ℤ := 2
      pure sub_reg
    pure sub_reg
  let teta ← if sub_reg = 1 then do
    let Pi := p
    let Sigma ← F.div s (Num.ofInt 2)
    let teta := (Num.ofInt 0)
    let teta ← forRange 0 46 teta fun i teta => do
      let teta := (F.add teta (F.mul (F.mul (F.lit (← idx T2_ps.ni i)) (← F.pow Pi (F.lit (← idx T2_ps.Ii i)))) (← F.pow (F.sub Sigma (Num.ofInt 2)) (Num.ofInt (← idx T2_ps.Ji i)))))
      pure teta
    pure teta
  else do
    let teta ← if sub_reg = 2 then do
      let Pi := p
      let Sigma ← F.div s (F.lit 0.7853)
      let teta := (Num.ofInt 0)
      let teta ← forRange 0 44 teta fun i teta => do
        let teta := (F.add teta (F.mul (F.mul (F.lit (← idx T2_ps.ni_2 i)) (← F.pow Pi (Num.ofInt (← idx T2_ps.Ii_2 i)))) (← F.pow (F.sub (Num.ofInt 10) Sigma) (Num.ofInt (← idx T2_ps.Ji_2 i)))))
        pure teta
      pure teta
    else do
      let Pi := p
      let Sigma ← F.div s (F.lit 2.9251)
      let teta := (Num.ofInt 0)
      let teta ← forRange 0 30 teta fun i teta => do
        let teta := (F.add teta (F.mul (F.mul (F.lit (← idx T2_ps.ni_3 i)) (← F.pow Pi (Num.ofInt (← idx T2_ps.Ii_3 i)))) (← F.pow (F.sub (Num.ofInt 2) Sigma) (Num.ofInt (← idx T2_ps.Ji_3 i)))))
        pure teta
      pure teta
    pure teta
  pure teta

/-- pyXSteam/Regions.py:3097-3127 -/
def p2_hs.Ii : List ℤ :=
  [0, 0, 0, 0, 0, 0, 1, 1, 1, 1, 1, 1, 1, 1, 1, 1, 2, 2, 2, 3, 3, 3, 3, 3, 4, 5, 5, 6, 7]

/-- pyXSteam/Regions.py:3128-3158 -/
def p2_hs.Ji : List ℤ :=
  [1, 3, 6, 16, 20, 22, 0, 1, 2, 3, 5, 6, 10, 16, 20, 22, 3, 16, 20, 0, 2, 3, 6, 16, 16, 3, 16,
   3, 1]

/-- pyXSteam/Regions.py:3159-3189 -/
def p2_hs.ni : List ℚ :=
  [-1.82575361923032e-02, -0.125229548799536, 0.592290437320145, 6.04769706185122,
   238.624965444474, -298.639090222922, 0.051225081304075, -0.437266515606486, 0.413336902999504,
   -5.16468254574773, -5.57014838445711, 12.8555037824478, 11.414410895329, -119.504225652714,
   -2847.7798596156, 4317.57846408006, 1.1289404080265, 1974.09186206319, 1516.12444706087,
   1.41324451421235e-02, 0.585501282219601, -2.97258075863012, 5.94567314847319,
   -6236.56565798905, 9659.86235133332, 6.81500934948134, -6332.07286824489, -5.5891922446576,
   4.00645798472063e-02]

/-- pyXSteam/Regions.py:3199-3233 -/
def p2_hs.Ii_2 : List ℤ :=
  [0, 0, 0, 0, 0, 1, 1, 1, 1, 1, 1, 2, 2, 2, 3, 3, 3, 3, 4, 4, 5, 5, 6, 6, 6, 7, 7, 8, 8, 8, 8,
   12, 14]

/-- pyXSteam/Regions.py:3234-3268 -/
def p2_hs.Ji_2 : List ℤ :=
  [0, 1, 2, 4, 8, 0, 1, 2, 3, 5, 12, 1, 6, 18, 0, 1, 7, 12, 1, 16, 1, 12, 1, 8, 18, 1, 16, 1, 3,
   14, 18, 10, 16]

/-- pyXSteam/Regions.py:3269-3303 -/
def p2_hs.ni_2 : List ℚ :=
  [8.01496989929495e-02, -0.543862807146111, 0.337455597421283, 8.9055545115745,
   313.840736431485, 0.797367065977789, -1.2161697355624, 8.72803386937477, -16.9769781757602,
   -186.552827328416, 95115.9274344237, -18.9168510120494, -4334.0703719484, 543212633.012715,
   0.144793408386013, 128.024559637516, -67230.9534071268, 33697238.0095287, -586.63419676272,
   -22140322476.9889, 1716.06668708389, -570817595.806302, -3121.09693178482, -2078413.8463301,
   3056059461577.86, 3221.57004314333, 326810259797.295, -1441.04158934487, 410.694867802691,
   109077066873.024, -24796465425889.3, 1888019068.65134, -123651009018773]

/-- pyXSteam/Regions.py:3313-3345 -/
def p2_hs.Ii_3 : List ℤ :=
  [0, 0, 0, 0, 0, 0, 1, 1, 1, 1, 1, 2, 2, 2, 2, 2, 3, 3, 3, 3, 3, 4, 5, 5, 5, 5, 6, 6, 10, 12,
   16]

/-- pyXSteam/Regions.py:3346-3378 -/
def p2_hs.Ji_3 : List ℤ :=
  [0, 1, 2, 3, 4, 8, 0, 2, 5, 8, 14, 2, 3, 7, 10, 18, 0, 5, 8, 16, 18, 18, 1, 4, 6, 14, 8, 18, 7,
   7, 10]

/-- pyXSteam/Regions.py:3379-3411 -/
def p2_hs.ni_3 : List ℚ :=
  [0.112225607199012, -3.39005953606712, -32.0503911730094, -197.5973051049, -407.693861553446,
   13294.3775222331, 1.70846839774007, 37.3694198142245, 3581.44365815434, 423014.446424664,
   -751071025.760063, 52.3446127607898, -228.351290812417, -960652.417056937, -80705929.2526074,
   1626980172256.69, 0.772465073604171, 46392.9973837746, -13731788.5134128, 1704703926305.12,
   -25110462818730.8, 31774883083552, 53.8685623675312, -55308.9094625169, -1028615.22421405,
   2042494187562.34, 273918446.626977, -2.63963146312685e15, -1078908541.08088, -29649262098.0124,
   -1.11754907323424e15]

/-- pyXSteam/Regions.py:3075-3418 -/
noncomputable def p2_hs (F : FP) (h : Num) (s : Num) : Py Num := do
  let sub_reg ← if h < (F.add (F.sub (F.add (Num.neg (F.lit 3498.98083432139)) (F.mul (F.lit 2575.60716905876) s)) (F.mul (F.lit 421.073558227969) (← F.pow s (Num.ofInt 2)))) (F.mul (F.lit 27.6349063799944) (← F.pow s (Num.ofInt 3)))) then do
    let sub_reg : ℤ := 1
    pure sub_reg
  else do
    let sub_reg ← if s < (F.lit 5.85) then do
      let sub_reg : ℤ := 3
      pure sub_reg
    else do
      let sub_reg : ℤ := 2
      pure sub_reg
    pure sub_reg
  let p2_hs ← if sub_reg = 1 then do
    let eta ← F.div h (Num.ofInt 4200)
    let Sigma ← F.div s (Num.ofInt 12)
    let Pi := (Num.ofInt 0)
    let Pi ← forRange 0 29 Pi fun i Pi => do
      let Pi := (F.add Pi (F.mul (F.mul (F.lit (← idx p2_hs.ni i)) (← F.pow (F.sub eta (F.lit 0.5)) (Num.ofInt (← idx p2_hs.Ii i)))) (← F.pow (F.sub Sigma (F.lit 1.2)) (Num.ofInt (← idx p2_hs.Ji i)))))
      pure Pi
    let p2_hs := (F.mul (← F.pow Pi (Num.ofInt 4)) (Num.ofInt 4))
    pure p2_hs
  else do
    let p2_hs ← if sub_reg = 2 then do
      let eta ← F.div h (Num.ofInt 4100)
      let Sigma ← F.div s (F.lit 7.9)
      let Pi := (Num.ofInt 0)
      let Pi ← forRange 0 33 Pi fun i Pi => do
        let Pi := (F.add Pi (F.mul (F.mul (F.lit (← idx p2_hs.ni_2 i)) (← F.pow (F.sub eta (F.lit 0.6)) (Num.ofInt (← idx p2_hs.Ii_2 i)))) (← F.pow (F.sub Sigma (F.lit 1.01)) (Num.ofInt (← idx p2_hs.Ji_2 i)))))
        pure Pi
      let p2_hs := (F.mul (← F.pow Pi (Num.ofInt 4)) (Num.ofInt 100))
      pure p2_hs
    else do
      let eta ← F.div h (Num.ofInt 3500)
      let Sigma ← F.div s (F.lit 5.9)
      let Pi := (Num.ofInt 0)
      let Pi ← forRange 0 31 Pi fun i Pi => do
        let Pi := (F.add Pi (F.mul (F.mul (F.lit (← idx p2_hs.ni_3 i)) (← F.pow (F.sub eta (F.lit 0.7)) (Num.ofInt (← idx p2_hs.Ii_3 i)))) (← F.pow (F.sub Sigma (F.lit 1.1)) (Num.ofInt (← idx p2_hs.Ji_3 i)))))
        pure Pi
      let p2_hs := (F.mul (← F.pow Pi (Num.ofInt 4)) (Num.ofInt 100))
      pure p2_hs
    pure p2_hs
  pure p2_hs

/-- one pass of the `while` loop; state: Ts, rhos, High_Bound, Low_Bound.
pyXSteam/Regions.py:3433-3450 -/
noncomputable def T2_prho.pass (F : FP) (p : Num) (rho : Num) :
    (Option Num × Num × Num × Num) → Py (Ctl (Option Num × Num × Num × Num))
  | (Ts, rhos, High_Bound, Low_Bound) => do
    if (Num.fabs (F.sub rho rhos)) > (F.lit 0.000001) then do
      let last_rhos := rhos
      let Ts ← F.div (F.add Low_Bound High_Bound) (Num.ofInt 2)
      let rhos ← F.div (Num.ofInt 1) (← Region2.v2_pT F p Ts)
      if Num.feq last_rhos rhos then do
        warn "T2_prho stopped iterating after %d steps because values did not converge"
        pure (.brk ((some Ts), rhos, High_Bound, Low_Bound))
      else do
        let (High_Bound, Low_Bound) ← if rhos < rho then do
          let High_Bound := Ts
          pure (High_Bound, Low_Bound)
        else do
          let Low_Bound := Ts
          pure (High_Bound, Low_Bound)
        pure (.next ((some Ts), rhos, High_Bound, Low_Bound))
    else do
      pure (.brk (Ts, rhos, High_Bound, Low_Bound))

/-- pyXSteam/Regions.py:3421-3451 -/
noncomputable def T2_prho (F : FP) (p : Num) (rho : Num) : Py Num := do
  let Low_Bound ← if p < (F.lit 16.5292) then do
    let Low_Bound ← Region4.T4_p F p
    pure Low_Bound
  else do
    let Low_Bound ← RegionBorders.B23T_p F p
    pure Low_Bound
  let High_Bound := (F.lit 1073.15)
  let rhos := (Num.ofInt (-1000))
  let (Ts, rhos, High_Bound, Low_Bound) ← whileLoop (Region2.T2_prho.pass F p rho) (none, rhos, High_Bound, Low_Bound)
  getVar Ts

end Region2

namespace Region3

/-- pyXSteam/Regions.py:3467-3508 -/
def p3_rhoT.Ii : List ℤ :=
  [0, 0, 0, 0, 0, 0, 0, 0, 1, 1, 1, 1, 2, 2, 2, 2, 2, 2, 3, 3, 3, 3, 3, 4, 4, 4, 4, 5, 5, 5, 6,
   6, 6, 7, 8, 9, 9, 10, 10, 11]

/-- pyXSteam/Regions.py:3509-3550 -/
def p3_rhoT.Ji : List ℤ :=
  [0, 0, 1, 2, 7, 10, 12, 23, 2, 6, 15, 17, 0, 2, 6, 7, 22, 26, 0, 2, 4, 16, 26, 0, 2, 4, 26, 1,
   3, 26, 0, 2, 26, 2, 26, 2, 26, 0, 1, 26]

/-- pyXSteam/Regions.py:3551-3592 -/
def p3_rhoT.ni : List ℚ :=
  [1.0658070028513, -15.732845290239, 20.944396974307, -7.6867707878716, 2.6185947787954,
   -2.808078114862, 1.2053369696517, -8.4566812812502e-03, -1.2654315477714, -1.1524407806681,
   0.88521043984318, -0.64207765181607, 0.38493460186671, -0.85214708824206, 4.8972281541877,
   -3.0502617256965, 0.039420536879154, 0.12558408424308, -0.2799932969871, 1.389979956946,
   -2.018991502357, -8.2147637173963e-03, -0.47596035734923, 0.0439840744735, -0.44476435428739,
   0.90572070719733, 0.70522450087967, 0.10770512626332, -0.32913623258954, -0.50871062041158,
   -0.022175400873096, 0.094260751665092, 0.16436278447961, -0.013503372241348,
   -0.014834345352472, 5.7922953628084e-04, 3.2308904703711e-03, 8.0964802996215e-05,
   -1.6557679795037e-04, -4.4923899061815e-05]

/-- pyXSteam/Regions.py:3460-3603 -/
noncomputable def p3_rhoT (F : FP) (rho : Num) (T : Num) : Py Num := do
  let R := (F.lit Constants.SPECIFIC_GAS_CONSTANT)
  let tc := (F.lit Constants.CRITICAL_TEMPERATURE)
  let rhoc := (F.lit 322.0)
  let delta ← F.div rho rhoc
  let tau ← F.div tc T
  let fidelta := (Num.ofInt 0)
  let fidelta ← forRange 1 40 fidelta fun i fidelta => do
    let fidelta := (F.add fidelta (F.mul (F.mul (F.mul (F.lit (← idx p3_rhoT.ni i)) (Num.ofInt (← idx p3_rhoT.Ii i))) (← F.pow delta (Num.ofInt ((← idx p3_rhoT.Ii i) - 1)))) (← F.pow tau (Num.ofInt (← idx p3_rhoT.Ji i)))))
    pure fidelta
  let fidelta := (F.add fidelta (← F.div (F.lit (← idx p3_rhoT.ni 0)) delta))
  F.div (F.mul (F.mul (F.mul (F.mul rho R) T) delta) fidelta) (F.lit 1000.0)

/-- pyXSteam/Regions.py:3613-3654 -/
def u3_rhoT.Ii : List ℤ :=
  [0, 0, 0, 0, 0, 0, 0, 0, 1, 1, 1, 1, 2, 2, 2, 2, 2, 2, 3, 3, 3, 3, 3, 4, 4, 4, 4, 5, 5, 5, 6,
   6, 6, 7, 8, 9, 9, 10, 10, 11]

/-- pyXSteam/Regions.py:3655-3696 -/
def u3_rhoT.Ji : List ℤ :=
  [0, 0, 1, 2, 7, 10, 12, 23, 2, 6, 15, 17, 0, 2, 6, 7, 22, 26, 0, 2, 4, 16, 26, 0, 2, 4, 26, 1,
   3, 26, 0, 2, 26, 2, 26, 2, 26, 0, 1, 26]

/-- pyXSteam/Regions.py:3697-3738 -/
def u3_rhoT.ni : List ℚ :=
  [1.0658070028513, -15.732845290239, 20.944396974307, -7.6867707878716, 2.6185947787954,
   -2.808078114862, 1.2053369696517, -8.4566812812502e-03, -1.2654315477714, -1.1524407806681,
   0.88521043984318, -0.64207765181607, 0.38493460186671, -0.85214708824206, 4.8972281541877,
   -3.0502617256965, 0.039420536879154, 0.12558408424308, -0.2799932969871, 1.389979956946,
   -2.018991502357, -8.2147637173963e-03, -0.47596035734923, 0.0439840744735, -0.44476435428739,
   0.90572070719733, 0.70522450087967, 0.10770512626332, -0.32913623258954, -0.50871062041158,
   -0.022175400873096, 0.094260751665092, 0.16436278447961, -0.013503372241348,
   -0.014834345352472, 5.7922953628084e-04, 3.2308904703711e-03, 8.0964802996215e-05,
   -1.6557679795037e-04, -4.4923899061815e-05]

/-- pyXSteam/Regions.py:3606-3747 -/
noncomputable def u3_rhoT (F : FP) (rho : Num) (T : Num) : Py Num := do
  let R := (F.lit Constants.SPECIFIC_GAS_CONSTANT)
  let tc := (F.lit Constants.CRITICAL_TEMPERATURE)
  let rhoc := (F.lit 322.0)
  let delta ← F.div rho rhoc
  let tau ← F.div tc T
  let fitau := (Num.ofInt 0)
  let fitau ← forRange 1 40 fitau fun i fitau => do
    let fitau := (F.add fitau (F.mul (F.mul (F.mul (F.lit (← idx u3_rhoT.ni i)) (← F.pow delta (Num.ofInt (← idx u3_rhoT.Ii i)))) (Num.ofInt (← idx u3_rhoT.Ji i))) (← F.pow tau (Num.ofInt ((← idx u3_rhoT.Ji i) - 1)))))
    pure fitau
  pure (F.mul (F.mul R T) (F.mul tau fitau))

/-- pyXSteam/Regions.py:3757-3798 -/
def h3_rhoT.Ii : List ℤ :=
  [0, 0, 0, 0, 0, 0, 0, 0, 1, 1, 1, 1, 2, 2, 2, 2, 2, 2, 3, 3, 3, 3, 3, 4, 4, 4, 4, 5, 5, 5, 6,
   6, 6, 7, 8, 9, 9, 10, 10, 11]

/-- pyXSteam/Regions.py:3799-3840 -/
def h3_rhoT.Ji : List ℤ :=
  [0, 0, 1, 2, 7, 10, 12, 23, 2, 6, 15, 17, 0, 2, 6, 7, 22, 26, 0, 2, 4, 16, 26, 0, 2, 4, 26, 1,
   3, 26, 0, 2, 26, 2, 26, 2, 26, 0, 1, 26]

/-- pyXSteam/Regions.py:3841-3882 -/
def h3_rhoT.ni : List ℚ :=
  [1.0658070028513, -15.732845290239, 20.944396974307, -7.6867707878716, 2.6185947787954,
   -2.808078114862, 1.2053369696517, -8.4566812812502e-03, -1.2654315477714, -1.1524407806681,
   0.88521043984318, -0.64207765181607, 0.38493460186671, -0.85214708824206, 4.8972281541877,
   -3.0502617256965, 0.039420536879154, 0.12558408424308, -0.2799932969871, 1.389979956946,
   -2.018991502357, -8.2147637173963e-03, -0.47596035734923, 0.0439840744735, -0.44476435428739,
   0.90572070719733, 0.70522450087967, 0.10770512626332, -0.32913623258954, -0.50871062041158,
   -0.022175400873096, 0.094260751665092, 0.16436278447961, -0.013503372241348,
   -0.014834345352472, 5.7922953628084e-04, 3.2308904703711e-03, 8.0964802996215e-05,
   -1.6557679795037e-04, -4.4923899061815e-05]

/-- pyXSteam/Regions.py:3750-3894 -/
noncomputable def h3_rhoT (F : FP) (rho : Num) (T : Num) : Py Num := do
  let R := (F.lit Constants.SPECIFIC_GAS_CONSTANT)
  let tc := (F.lit Constants.CRITICAL_TEMPERATURE)
  let rhoc := (F.lit 322.0)
  let delta ← F.div rho rhoc
  let tau ← F.div tc T
  let fidelta := (Num.ofInt 0)
  let fitau := (Num.ofInt 0)
  let (fidelta, fitau) ← forRange 1 40 (fidelta, fitau) fun i (fidelta, fitau) => do
    let fidelta := (F.add fidelta (F.mul (F.mul (F.mul (F.lit (← idx h3_rhoT.ni i)) (Num.ofInt (← idx h3_rhoT.Ii i))) (← F.pow delta (Num.ofInt ((← idx h3_rhoT.Ii i) - 1)))) (← F.pow tau (Num.ofInt (← idx h3_rhoT.Ji i)))))
    let fitau := (F.add fitau (F.mul (F.mul (F.mul (F.lit (← idx h3_rhoT.ni i)) (← F.pow delta (Num.ofInt (← idx h3_rhoT.Ii i)))) (Num.ofInt (← idx h3_rhoT.Ji i))) (← F.pow tau (Num.ofInt ((← idx h3_rhoT.Ji i) - 1)))))
    pure (fidelta, fitau)
  let fidelta := (F.add fidelta (← F.div (F.lit (← idx h3_rhoT.ni 0)) delta))
  pure (F.mul (F.mul R T) (F.add (F.mul tau fitau) (F.mul delta fidelta)))

/-- pyXSteam/Regions.py:3904-3945 -/
def s3_rhoT.Ii : List ℤ :=
  [0, 0, 0, 0, 0, 0, 0, 0, 1, 1, 1, 1, 2, 2, 2, 2, 2, 2, 3, 3, 3, 3, 3, 4, 4, 4, 4, 5, 5, 5, 6,
   6, 6, 7, 8, 9, 9, 10, 10, 11]

/-- pyXSteam/Regions.py:3946-3987 -/
def s3_rhoT.Ji : List ℤ :=
  [0, 0, 1, 2, 7, 10, 12, 23, 2, 6, 15, 17, 0, 2, 6, 7, 22, 26, 0, 2, 4, 16, 26, 0, 2, 4, 26, 1,
   3, 26, 0, 2, 26, 2, 26, 2, 26, 0, 1, 26]

/-- pyXSteam/Regions.py:3988-4029 -/
def s3_rhoT.ni : List ℚ :=
  [1.0658070028513, -15.732845290239, 20.944396974307, -7.6867707878716, 2.6185947787954,
   -2.808078114862, 1.2053369696517, -8.4566812812502e-03, -1.2654315477714, -1.1524407806681,
   0.88521043984318, -0.64207765181607, 0.38493460186671, -0.85214708824206, 4.8972281541877,
   -3.0502617256965, 0.039420536879154, 0.12558408424308, -0.2799932969871, 1.389979956946,
   -2.018991502357, -8.2147637173963e-03, -0.47596035734923, 0.0439840744735, -0.44476435428739,
   0.90572070719733, 0.70522450087967, 0.10770512626332, -0.32913623258954, -0.50871062041158,
   -0.022175400873096, 0.094260751665092, 0.16436278447961, -0.013503372241348,
   -0.014834345352472, 5.7922953628084e-04, 3.2308904703711e-03, 8.0964802996215e-05,
   -1.6557679795037e-04, -4.4923899061815e-05]

/-- pyXSteam/Regions.py:3897-4041 -/
noncomputable def s3_rhoT (F : FP) (rho : Num) (T : Num) : Py Num := do
  let R := (F.lit Constants.SPECIFIC_GAS_CONSTANT)
  let tc := (F.lit Constants.CRITICAL_TEMPERATURE)
  let rhoc := (F.lit 322.0)
  let delta ← F.div rho rhoc
  let tau ← F.div tc T
  let fi := (Num.ofInt 0)
  let fitau := (Num.ofInt 0)
  let (fi, fitau) ← forRange 1 40 (fi, fitau) fun i (fi, fitau) => do
    let fi := (F.add fi (F.mul (F.mul (F.lit (← idx s3_rhoT.ni i)) (← F.pow delta (Num.ofInt (← idx s3_rhoT.Ii i)))) (← F.pow tau (Num.ofInt (← idx s3_rhoT.Ji i)))))
    let fitau := (F.add fitau (F.mul (F.mul (F.mul (F.lit (← idx s3_rhoT.ni i)) (← F.pow delta (Num.ofInt (← idx s3_rhoT.Ii i)))) (Num.ofInt (← idx s3_rhoT.Ji i))) (← F.pow tau (Num.ofInt ((← idx s3_rhoT.Ji i) - 1)))))
    pure (fi, fitau)
  let fi := (F.add fi (F.mul (F.lit (← idx s3_rhoT.ni 0)) (← F.log delta)))
  pure (F.mul R (F.sub (F.mul tau fitau) fi))

/-- pyXSteam/Regions.py:4051-4092 -/
def Cp3_rhoT.Ii : List ℤ :=
  [0, 0, 0, 0, 0, 0, 0, 0, 1, 1, 1, 1, 2, 2, 2, 2, 2, 2, 3, 3, 3, 3, 3, 4, 4, 4, 4, 5, 5, 5, 6,
   6, 6, 7, 8, 9, 9, 10, 10, 11]

/-- pyXSteam/Regions.py:4093-4134 -/
def Cp3_rhoT.Ji : List ℤ :=
  [0, 0, 1, 2, 7, 10, 12, 23, 2, 6, 15, 17, 0, 2, 6, 7, 22, 26, 0, 2, 4, 16, 26, 0, 2, 4, 26, 1,
   3, 26, 0, 2, 26, 2, 26, 2, 26, 0, 1, 26]

/-- pyXSteam/Regions.py:4135-4176 -/
def Cp3_rhoT.ni : List ℚ :=
  [1.0658070028513, -15.732845290239, 20.944396974307, -7.6867707878716, 2.6185947787954,
   -2.808078114862, 1.2053369696517, -8.4566812812502e-03, -1.2654315477714, -1.1524407806681,
   0.88521043984318, -0.64207765181607, 0.38493460186671, -0.85214708824206, 4.8972281541877,
   -3.0502617256965, 0.039420536879154, 0.12558408424308, -0.2799932969871, 1.389979956946,
   -2.018991502357, -8.2147637173963e-03, -0.47596035734923, 0.0439840744735, -0.44476435428739,
   0.90572070719733, 0.70522450087967, 0.10770512626332, -0.32913623258954, -0.50871062041158,
   -0.022175400873096, 0.094260751665092, 0.16436278447961, -0.013503372241348,
   -0.014834345352472, 5.7922953628084e-04, 3.2308904703711e-03, 8.0964802996215e-05,
   -1.6557679795037e-04, -4.4923899061815e-05]

/-- pyXSteam/Regions.py:4044-4204 -/
noncomputable def Cp3_rhoT (F : FP) (rho : Num) (T : Num) : Py Num := do
  let R := (F.lit Constants.SPECIFIC_GAS_CONSTANT)
  let tc := (F.lit Constants.CRITICAL_TEMPERATURE)
  let rhoc := (F.lit 322.0)
  let delta ← F.div rho rhoc
  let tau ← F.div tc T
  let fitautau := (Num.ofInt 0)
  let fidelta := (Num.ofInt 0)
  let fideltatau := (Num.ofInt 0)
  let fideltadelta := (Num.ofInt 0)
  let (fitautau, fidelta, fideltatau, fideltadelta) ← forRange 1 40 (fitautau, fidelta, fideltatau, fideltadelta) fun i (fitautau, fidelta, fideltatau, fideltadelta) => do
    let fitautau := (F.add fitautau (F.mul (F.mul (F.mul (F.mul (F.lit (← idx Cp3_rhoT.ni i)) (← F.pow delta (Num.ofInt (← idx Cp3_rhoT.Ii i)))) (Num.ofInt (← idx Cp3_rhoT.Ji i))) (Num.ofInt ((← idx Cp3_rhoT.Ji i) - 1))) (← F.pow tau (Num.ofInt ((← idx Cp3_rhoT.Ji i) - 2)))))
    let fidelta := (F.add fidelta (F.mul (F.mul (F.mul (F.lit (← idx Cp3_rhoT.ni i)) (Num.ofInt (← idx Cp3_rhoT.Ii i))) (← F.pow delta (Num.ofInt ((← idx Cp3_rhoT.Ii i) - 1)))) (← F.pow tau (Num.ofInt (← idx Cp3_rhoT.Ji i)))))
    let fideltatau := (F.add fideltatau (F.mul (F.mul (F.mul (F.mul (F.lit (← idx Cp3_rhoT.ni i)) (Num.ofInt (← idx Cp3_rhoT.Ii i))) (← F.pow delta (Num.ofInt ((← idx Cp3_rhoT.Ii i) - 1)))) (Num.ofInt (← idx Cp3_rhoT.Ji i))) (← F.pow tau (Num.ofInt ((← idx Cp3_rhoT.Ji i) - 1)))))
    let fideltadelta := (F.add fideltadelta (F.mul (F.mul (F.mul (F.mul (F.lit (← idx Cp3_rhoT.ni i)) (Num.ofInt (← idx Cp3_rhoT.Ii i))) (Num.ofInt ((← idx Cp3_rhoT.Ii i) - 1))) (← F.pow delta (Num.ofInt ((← idx Cp3_rhoT.Ii i) - 2)))) (← F.pow tau (Num.ofInt (← idx Cp3_rhoT.Ji i)))))
    pure (fitautau, fidelta, fideltatau, fideltadelta)
  let fidelta := (F.add fidelta (← F.div (F.lit (← idx Cp3_rhoT.ni 0)) delta))
  let fideltadelta := (F.sub fideltadelta (← F.div (F.lit (← idx Cp3_rhoT.ni 0)) (← F.pow delta (Num.ofInt 2))))
  pure (F.mul R (F.add (F.mul (Num.neg (← F.pow tau (Num.ofInt 2))) fitautau) (← F.div (← F.pow (F.sub (F.mul delta fidelta) (F.mul (F.mul delta tau) fideltatau)) (Num.ofInt 2)) (F.add (F.mul (F.mul (Num.ofInt 2) delta) fidelta) (F.mul (← F.pow delta (Num.ofInt 2)) fideltadelta)))))

/-- pyXSteam/Regions.py:4214-4255 -/
def Cv3_rhoT.Ii : List ℤ :=
  [0, 0, 0, 0, 0, 0, 0, 0, 1, 1, 1, 1, 2, 2, 2, 2, 2, 2, 3, 3, 3, 3, 3, 4, 4, 4, 4, 5, 5, 5, 6,
   6, 6, 7, 8, 9, 9, 10, 10, 11]

/-- pyXSteam/Regions.py:4256-4297 -/
def Cv3_rhoT.Ji : List ℤ :=
  [0, 0, 1, 2, 7, 10, 12, 23, 2, 6, 15, 17, 0, 2, 6, 7, 22, 26, 0, 2, 4, 16, 26, 0, 2, 4, 26, 1,
   3, 26, 0, 2, 26, 2, 26, 2, 26, 0, 1, 26]

/-- pyXSteam/Regions.py:4298-4339 -/
def Cv3_rhoT.ni : List ℚ :=
  [1.0658070028513, -15.732845290239, 20.944396974307, -7.6867707878716, 2.6185947787954,
   -2.808078114862, 1.2053369696517, -8.4566812812502e-03, -1.2654315477714, -1.1524407806681,
   0.88521043984318, -0.64207765181607, 0.38493460186671, -0.85214708824206, 4.8972281541877,
   -3.0502617256965, 0.039420536879154, 0.12558408424308, -0.2799932969871, 1.389979956946,
   -2.018991502357, -8.2147637173963e-03, -0.47596035734923, 0.0439840744735, -0.44476435428739,
   0.90572070719733, 0.70522450087967, 0.10770512626332, -0.32913623258954, -0.50871062041158,
   -0.022175400873096, 0.094260751665092, 0.16436278447961, -0.013503372241348,
   -0.014834345352472, 5.7922953628084e-04, 3.2308904703711e-03, 8.0964802996215e-05,
   -1.6557679795037e-04, -4.4923899061815e-05]

/-- pyXSteam/Regions.py:4207-4353 -/
noncomputable def Cv3_rhoT (F : FP) (rho : Num) (T : Num) : Py Num := do
  let R := (F.lit Constants.SPECIFIC_GAS_CONSTANT)
  let tc := (F.lit Constants.CRITICAL_TEMPERATURE)
  let rhoc := (F.lit 322.0)
  let delta ← F.div rho rhoc
  let tau ← F.div tc T
  let fitautau := (Num.ofInt 0)
  let fitautau ← forRange 1 40 fitautau fun i fitautau => do
    let fitautau := (F.add fitautau (F.mul (F.mul (F.mul (F.mul (F.lit (← idx Cv3_rhoT.ni i)) (← F.pow delta (Num.ofInt (← idx Cv3_rhoT.Ii i)))) (Num.ofInt (← idx Cv3_rhoT.Ji i))) (Num.ofInt ((← idx Cv3_rhoT.Ji i) - 1))) (← F.pow tau (Num.ofInt ((← idx Cv3_rhoT.Ji i) - 2)))))
    pure fitautau
  pure (F.mul R (Num.neg (F.mul (F.mul tau tau) fitautau)))

/-- pyXSteam/Regions.py:4363-4404 -/
def w3_rhoT.Ii : List ℤ :=
  [0, 0, 0, 0, 0, 0, 0, 0, 1, 1, 1, 1, 2, 2, 2, 2, 2, 2, 3, 3, 3, 3, 3, 4, 4, 4, 4, 5, 5, 5, 6,
   6, 6, 7, 8, 9, 9, 10, 10, 11]

/-- pyXSteam/Regions.py:4405-4446 -/
def w3_rhoT.Ji : List ℤ :=
  [0, 0, 1, 2, 7, 10, 12, 23, 2, 6, 15, 17, 0, 2, 6, 7, 22, 26, 0, 2, 4, 16, 26, 0, 2, 4, 26, 1,
   3, 26, 0, 2, 26, 2, 26, 2, 26, 0, 1, 26]

/-- pyXSteam/Regions.py:4447-4488 -/
def w3_rhoT.ni : List ℚ :=
  [1.0658070028513, -15.732845290239, 20.944396974307, -7.6867707878716, 2.6185947787954,
   -2.808078114862, 1.2053369696517, -8.4566812812502e-03, -1.2654315477714, -1.1524407806681,
   0.88521043984318, -0.64207765181607, 0.38493460186671, -0.85214708824206, 4.8972281541877,
   -3.0502617256965, 0.039420536879154, 0.12558408424308, -0.2799932969871, 1.389979956946,
   -2.018991502357, -8.2147637173963e-03, -0.47596035734923, 0.0439840744735, -0.44476435428739,
   0.90572070719733, 0.70522450087967, 0.10770512626332, -0.32913623258954, -0.50871062041158,
   -0.022175400873096, 0.094260751665092, 0.16436278447961, -0.013503372241348,
   -0.014834345352472, 5.7922953628084e-04, 3.2308904703711e-03, 8.0964802996215e-05,
   -1.6557679795037e-04, -4.4923899061815e-05]

/-- pyXSteam/Regions.py:4356-4522 -/
noncomputable def w3_rhoT (F : FP) (rho : Num) (T : Num) : Py Num := do
  let R := (F.lit Constants.SPECIFIC_GAS_CONSTANT)
  let tc := (F.lit Constants.CRITICAL_TEMPERATURE)
  let rhoc := (F.lit 322.0)
  let delta ← F.div rho rhoc
  let tau ← F.div tc T
  let fitautau := (Num.ofInt 0)
  let fidelta := (Num.ofInt 0)
  let fideltatau := (Num.ofInt 0)
  let fideltadelta := (Num.ofInt 0)
  let (fitautau, fidelta, fideltatau, fideltadelta) ← forRange 1 40 (fitautau, fidelta, fideltatau, fideltadelta) fun i (fitautau, fidelta, fideltatau, fideltadelta) => do
    let fitautau := (F.add fitautau (F.mul (F.mul (F.mul (F.mul (F.lit (← idx w3_rhoT.ni i)) (← F.pow delta (Num.ofInt (← idx w3_rhoT.Ii i)))) (Num.ofInt (← idx w3_rhoT.Ji i))) (Num.ofInt ((← idx w3_rhoT.Ji i) - 1))) (← F.pow tau (Num.ofInt ((← idx w3_rhoT.Ji i) - 2)))))
    let fidelta := (F.add fidelta (F.mul (F.mul (F.mul (F.lit (← idx w3_rhoT.ni i)) (Num.ofInt (← idx w3_rhoT.Ii i))) (← F.pow delta (Num.ofInt ((← idx w3_rhoT.Ii i) - 1)))) (← F.pow tau (Num.ofInt (← idx w3_rhoT.Ji i)))))
    let fideltatau := (F.add fideltatau (F.mul (F.mul (F.mul (F.mul (F.lit (← idx w3_rhoT.ni i)) (Num.ofInt (← idx w3_rhoT.Ii i))) (← F.pow delta (Num.ofInt ((← idx w3_rhoT.Ii i) - 1)))) (Num.ofInt (← idx w3_rhoT.Ji i))) (← F.pow tau (Num.ofInt ((← idx w3_rhoT.Ji i) - 1)))))
    let fideltadelta := (F.add fideltadelta (F.mul (F.mul (F.mul (F.mul (F.lit (← idx w3_rhoT.ni i)) (Num.ofInt (← idx w3_rhoT.Ii i))) (Num.ofInt ((← idx w3_rhoT.Ii i) - 1))) (← F.pow delta (Num.ofInt ((← idx w3_rhoT.Ii i) - 2)))) (← F.pow tau (Num.ofInt (← idx w3_rhoT.Ji i)))))
    pure (fitautau, fidelta, fideltatau, fideltadelta)
  let fidelta := (F.add fidelta (← F.div (F.lit (← idx w3_rhoT.ni 0)) delta))
  let fideltadelta := (F.sub fideltadelta (← F.div (F.lit (← idx w3_rhoT.ni 0)) (← F.pow delta (Num.ofInt 2))))
  F.pow (F.mul (F.mul (F.mul (Num.ofInt 1000) R) T) (F.sub (F.add (F.mul (F.mul (Num.ofInt 2) delta) fidelta) (F.mul (← F.pow delta (Num.ofInt 2)) fideltadelta)) (← F.div (← F.pow (F.sub (F.mul delta fidelta) (F.mul (F.mul delta tau) fideltatau)) (Num.ofInt 2)) (F.mul (← F.pow tau (Num.ofInt 2)) fitautau)))) (F.lit 0.5)

/-- pyXSteam/Regions.py:4543-4575 -/
def T3_ph.Ii : List ℤ :=
  [-12, -12, -12, -12, -12, -12, -12, -12, -10, -10, -10, -8, -8, -8, -8, -5, -3, -2, -2, -2, -1,
   -1, 0, 0, 1, 3, 3, 4, 4, 10, 12]

/-- pyXSteam/Regions.py:4576-4608 -/
def T3_ph.Ji : List ℤ :=
  [0, 1, 2, 6, 14, 16, 20, 22, 1, 5, 12, 0, 2, 4, 10, 2, 0, 1, 3, 4, 0, 2, 0, 1, 1, 0, 1, 0, 3,
   4, 5]

/-- pyXSteam/Regions.py:4609-4641 -/
def T3_ph.ni : List ℚ :=
  [-1.33645667811215e-07, 4.55912656802978e-06, -1.46294640700979e-05, 6.3934131297008e-03,
   372.783927268847, -7186.54377460447, 573494.7521034, -2675693.29111439, -3.34066283302614e-05,
   -2.45479214069597e-02, 47.8087847764996, 7.64664131818904e-06, 1.28350627676972e-03,
   1.71219081377331e-02, -8.51007304583213, -1.36513461629781e-02, -3.84460997596657e-06,
   3.37423807911655e-03, -0.551624873066791, 0.72920227710747, -9.92522757376041e-03,
   -0.119308831407288, 0.793929190615421, 0.454270731799386, 0.20999859125991,
   -6.42109823904738e-03, -0.023515586860454, 2.52233108341612e-03, -7.64885133368119e-03,
   1.36176427574291e-02, -1.33027883575669e-02]

/-- pyXSteam/Regions.py:4651-4685 -/
def T3_ph.Ii_2 : List ℤ :=
  [-12, -12, -10, -10, -10, -10, -10, -8, -8, -8, -8, -8, -6, -6, -6, -4, -4, -3, -2, -2, -1, -1,
   -1, -1, -1, -1, 0, 0, 1, 3, 5, 6, 8]

/-- pyXSteam/Regions.py:4686-4720 -/
def T3_ph.Ji_2 : List ℤ :=
  [0, 1, 0, 1, 5, 10, 12, 0, 1, 2, 4, 10, 0, 1, 2, 0, 1, 5, 0, 4, 2, 4, 6, 10, 14, 16, 0, 2, 1,
   1, 1, 1, 1]

/-- pyXSteam/Regions.py:4721-4755 -/
def T3_ph.ni_2 : List ℚ :=
  [3.2325457364492e-05, -1.27575556587181e-04, -4.75851877356068e-04, 1.56183014181602e-03,
   0.105724860113781, -85.8514221132534, 724.140095480911, 2.96475810273257e-03,
   -5.92721983365988e-03, -1.26305422818666e-02, -0.115716196364853, 84.9000969739595,
   -1.08602260086615e-02, 1.54304475328851e-02, 7.50455441524466e-02, 2.52520973612982e-02,
   -6.02507901232996e-02, -3.07622221350501, -5.74011959864879e-02, 5.03471360939849,
   -0.925081888584834, 3.91733882917546, -77.314600713019, 9493.08762098587, -1410437.19679409,
   8491662.30819026, 0.861095729446704, 0.32334644281172, 0.873281936020439, -0.436653048526683,
   0.286596714529479, -0.131778331276228, 6.76682064330275e-03]

/-- pyXSteam/Regions.py:4525-4762 -/
noncomputable def T3_ph (F : FP) (p : Num) (h : Num) : Py Num := do
  let h3ab := (F.add (F.sub (F.add (F.lit 2014.64004206875) (F.mul (F.lit 3.74696550136983) p)) (F.mul (F.lit 2.19921901054187e-02) (← F.pow p (Num.ofInt 2)))) (F.mul (F.lit 8.7513168600995e-05) (← F.pow p (Num.ofInt 3))))
  let T3_ph ← if h < h3ab then do
    let ps ← F.div p (Num.ofInt 100)
    let hs ← F.div h (Num.ofInt 2300)
    let Ts := (Num.ofInt 0)
    let Ts ← forRange 0 31 Ts fun i Ts => do
      let Ts := (F.add Ts (F.mul (F.mul (F.lit (← idx T3_ph.ni i)) (← F.pow (F.add ps (F.lit 0.24)) (Num.ofInt (← idx T3_ph.Ii i)))) (← F.pow (F.sub hs (F.lit 0.615)) (Num.ofInt (← idx T3_ph.Ji i)))))
      pure Ts
    let T3_ph := (F.mul Ts (Num.ofInt 760))
    pure T3_ph
  else do
    let hs ← F.div h (Num.ofInt 2800)
    let ps ← F.div p (Num.ofInt 100)
    let Ts := (Num.ofInt 0)
    let Ts ← forRange 0 33 Ts fun i Ts => do
      let Ts := (F.add Ts (F.mul (F.mul (F.lit (← idx T3_ph.ni_2 i)) (← F.pow (F.add ps (F.lit 0.298)) (Num.ofInt (← idx T3_ph.Ii_2 i)))) (← F.pow (F.sub hs (F.lit 0.72)) (Num.ofInt (← idx T3_ph.Ji_2 i)))))
      pure Ts
    let T3_ph := (F.mul Ts (Num.ofInt 860))
    pure T3_ph
  pure T3_ph

/-- pyXSteam/Regions.py:4782-4815 -/
def v3_ph.Ii : List ℤ :=
  [-12, -12, -12, -12, -10, -10, -10, -8, -8, -6, -6, -6, -4, -4, -3, -2, -2, -1, -1, -1, -1, 0,
   0, 1, 1, 1, 2, 2, 3, 4, 5, 8]

/-- pyXSteam/Regions.py:4816-4849 -/
def v3_ph.Ji : List ℤ :=
  [6, 8, 12, 18, 4, 7, 10, 5, 12, 3, 4, 22, 2, 3, 7, 3, 16, 0, 1, 2, 3, 0, 1, 0, 1, 2, 0, 2, 0,
   2, 2, 2]

/-- pyXSteam/Regions.py:4850-4883 -/
def v3_ph.ni : List ℚ :=
  [5.29944062966028e-03, -0.170099690234461, 11.1323814312927, -2178.98123145125,
   -5.06061827980875e-04, 0.556495239685324, -9.43672726094016, -0.297856807561527,
   93.9353943717186, 1.92944939465981e-02, 0.421740664704763, -3689141.2628233,
   -7.37566847600639e-03, -0.354753242424366, -1.99768169338727, 1.15456297059049,
   5683.6687581596, 8.08169540124668e-03, 0.172416341519307, 1.04270175292927, -0.297691372792847,
   0.560394465163593, 0.275234661176914, -0.148347894866012, -6.51142513478515e-02,
   -2.92468715386302, 6.64876096952665e-02, 3.52335014263844, -1.46340792313332e-02,
   -2.24503486668184, 1.10533464706142, -4.08757344495612e-02]

/-- pyXSteam/Regions.py:4893-4924 -/
def v3_ph.Ii_2 : List ℤ :=
  [-12, -12, -8, -8, -8, -8, -8, -8, -6, -6, -6, -6, -6, -6, -4, -4, -4, -3, -3, -2, -2, -1, -1,
   -1, -1, 0, 1, 1, 2, 2]

/-- pyXSteam/Regions.py:4925-4956 -/
def v3_ph.Ji_2 : List ℤ :=
  [0, 1, 0, 1, 3, 6, 7, 8, 0, 1, 2, 5, 6, 10, 3, 6, 10, 0, 2, 1, 2, 0, 1, 4, 5, 0, 0, 1, 2, 6]

/-- pyXSteam/Regions.py:4957-4988 -/
def v3_ph.ni_2 : List ℚ :=
  [-2.25196934336318e-09, 1.40674363313486e-08, 2.3378408528056e-06, -3.31833715229001e-05,
   1.07956778514318e-03, -0.271382067378863, 1.07202262490333, -0.853821329075382,
   -2.15214194340526e-05, 7.6965608822273e-04, -4.31136580433864e-03, 0.453342167309331,
   -0.507749535873652, -100.475154528389, -0.219201924648793, -3.21087965668917, 607.567815637771,
   5.57686450685932e-04, 0.18749904002955, 9.05368030448107e-03, 0.285417173048685,
   3.29924030996098e-02, 0.239897419685483, 4.82754995951394, -11.8035753702231,
   0.169490044091791, -1.79967222507787e-02, 3.71810116332674e-02, -5.36288335065096e-02,
   1.6069710109252]

/-- pyXSteam/Regions.py:4765-4995 -/
noncomputable def v3_ph (F : FP) (p : Num) (h : Num) : Py Num := do
  let h3ab := (F.add (F.sub (F.add (F.lit 2014.64004206875) (F.mul (F.lit 3.74696550136983) p)) (F.mul (F.lit 2.19921901054187e-02) (← F.pow p (Num.ofInt 2)))) (F.mul (F.lit 8.7513168600995e-05) (← F.pow p (Num.ofInt 3))))
  let v3_ph ← if h < h3ab then do
    let ps ← F.div p (Num.ofInt 100)
    let hs ← F.div h (Num.ofInt 2100)
    let vs := (Num.ofInt 0)
    let vs ← forRange 0 32 vs fun i vs => do
      let vs := (F.add vs (F.mul (F.mul (F.lit (← idx v3_ph.ni i)) (← F.pow (F.add ps (F.lit 0.128)) (Num.ofInt (← idx v3_ph.Ii i)))) (← F.pow (F.sub hs (F.lit 0.727)) (Num.ofInt (← idx v3_ph.Ji i)))))
      pure vs
    let v3_ph := (F.mul vs (F.lit 0.0028))
    pure v3_ph
  else do
    let ps ← F.div p (Num.ofInt 100)
    let hs ← F.div h (Num.ofInt 2800)
    let vs := (Num.ofInt 0)
    let vs ← forRange 0 30 vs fun i vs => do
      let vs := (F.add vs (F.mul (F.mul (F.lit (← idx v3_ph.ni_2 i)) (← F.pow (F.add ps (F.lit 0.0661)) (Num.ofInt (← idx v3_ph.Ii_2 i)))) (← F.pow (F.sub hs (F.lit 0.72)) (Num.ofInt (← idx v3_ph.Ji_2 i)))))
      pure vs
    let v3_ph := (F.mul vs (F.lit 0.0088))
    pure v3_ph
  pure v3_ph

/-- pyXSteam/Regions.py:5010-5044 -/
def T3_ps.Ii : List ℤ :=
  [-12, -12, -10, -10, -10, -10, -8, -8, -8, -8, -6, -6, -6, -5, -5, -5, -4, -4, -4, -2, -2, -1,
   -1, 0, 0, 0, 1, 2, 2, 3, 8, 8, 10]

/-- pyXSteam/Regions.py:5045-5079 -/
def T3_ps.Ji : List ℤ :=
  [28, 32, 4, 10, 12, 14, 5, 7, 8, 28, 2, 6, 32, 0, 14, 32, 6, 10, 36, 1, 4, 1, 6, 0, 1, 4, 0, 0,
   3, 2, 0, 1, 2]

/-- pyXSteam/Regions.py:5080-5114 -/
def T3_ps.ni : List ℚ :=
  [1500420082.63875, -159397258480.424, 5.02181140217975e-04, -67.2057767855466,
   1450.58545404456, -8238.8953488889, -0.154852214233853, 11.2305046746695, -29.7000213482822,
   43856513263.5495, 1.37837838635464e-03, -2.97478527157462, 9717779473494.13,
   -5.71527767052398e-05, 28830.794977842, -74442828926270.3, 12.8017324848921, -368.275545889071,
   6.64768904779177e15, 0.044935925195888, -4.22897836099655, -0.240614376434179,
   -4.74341365254924, 0.72409399912611, 0.923874349695897, 3.99043655281015, 3.84066651868009e-02,
   -3.59344365571848e-03, -0.735196448821653, 0.188367048396131, 1.41064266818704e-04,
   -2.57418501496337e-03, 1.23220024851555e-03]

/-- pyXSteam/Regions.py:5124-5153 -/
def T3_ps.Ii_2 : List ℤ :=
  [-12, -12, -12, -12, -8, -8, -8, -6, -6, -6, -5, -5, -5, -5, -5, -4, -3, -3, -2, 0, 2, 3, 4, 5,
   6, 8, 12, 14]

/-- pyXSteam/Regions.py:5154-5183 -/
def T3_ps.Ji_2 : List ℤ :=
  [1, 3, 4, 7, 0, 1, 3, 0, 2, 4, 0, 1, 2, 4, 6, 12, 1, 6, 2, 0, 1, 1, 0, 24, 0, 3, 1, 2]

/-- pyXSteam/Regions.py:5184-5213 -/
def T3_ps.ni_2 : List ℚ :=
  [0.52711170160166, -40.1317830052742, 153.020073134484, -2247.99398218827, -0.193993484669048,
   -1.40467557893768, 42.6799878114024, 0.752810643416743, 22.6657238616417, -622.873556909932,
   -0.660823667935396, 0.841267087271658, -25.3717501764397, 485.708963532948, 880.531517490555,
   2650155.92794626, -0.359287150025783, -656.991567673753, 2.41768149185367, 0.856873461222588,
   0.655143675313458, -0.213535213206406, 5.62974957606348e-03, -316955725450471,
   -6.99997000152457e-04, 1.19845803210767e-02, 1.93848122022095e-05, -2.15095749182309e-05]

/-- pyXSteam/Regions.py:4998-5220 -/
noncomputable def T3_ps (F : FP) (p : Num) (s : Num) : Py Num := do
  let T3_ps ← if s ≤ (F.lit 4.41202148223476) then do
    let Sigma ← F.div s (F.lit 4.4)
    let Pi ← F.div p (Num.ofInt 100)
    let teta := (Num.ofInt 0)
    let teta ← forRange 0 33 teta fun i teta => do
      let teta := (F.add teta (F.mul (F.mul (F.lit (← idx T3_ps.ni i)) (← F.pow (F.add Pi (F.lit 0.24)) (Num.ofInt (← idx T3_ps.Ii i)))) (← F.pow (F.sub Sigma (F.lit 0.703)) (Num.ofInt (← idx T3_ps.Ji i)))))
      pure teta
    let T3_ps := (F.mul teta (Num.ofInt 760))
    pure T3_ps
  else do
    let Sigma ← F.div s (F.lit 5.3)
    let Pi ← F.div p (Num.ofInt 100)
    let teta := (Num.ofInt 0)
    let teta ← forRange 0 28 teta fun i teta => do
      let teta := (F.add teta (F.mul (F.mul (F.lit (← idx T3_ps.ni_2 i)) (← F.pow (F.add Pi (F.lit 0.76)) (Num.ofInt (← idx T3_ps.Ii_2 i)))) (← F.pow (F.sub Sigma (F.lit 0.818)) (Num.ofInt (← idx T3_ps.Ji_2 i)))))
      pure teta
    let T3_ps := (F.mul teta (Num.ofInt 860))
    pure T3_ps
  pure T3_ps

/-- pyXSteam/Regions.py:5235-5264 -/
def v3_ps.Ii : List ℤ :=
  [-12, -12, -12, -10, -10, -10, -10, -8, -8, -8, -8, -6, -5, -4, -3, -3, -2, -2, -1, -1, 0, 0,
   0, 1, 2, 4, 5, 6]

/-- pyXSteam/Regions.py:5265-5294 -/
def v3_ps.Ji : List ℤ :=
  [10, 12, 14, 4, 8, 10, 20, 5, 6, 14, 16, 28, 1, 5, 2, 4, 3, 8, 1, 2, 0, 1, 3, 0, 0, 2, 2, 0]

/-- pyXSteam/Regions.py:5295-5324 -/
def v3_ps.ni : List ℚ :=
  [79.5544074093975, -2382.6124298459, 17681.3100617787, -1.10524727080379e-03,
   -15.3213833655326, 297.544599376982, -35031520.6871242, 0.277513761062119, -0.523964271036888,
   -148011.182995403, 1600148.99374266, 1708023226634.27, 2.46866996006494e-04, 1.6532608479798,
   -0.118008384666987, 2.537986423559, 0.965127704669424, -28.2172420532826, 0.203224612353823,
   1.10648186063513, 0.52612794845128, 0.277000018736321, 1.08153340501132, -7.44127885357893e-02,
   1.64094443541384e-02, -6.80468275301065e-02, 0.025798857610164, -1.45749861944416e-04]

/-- pyXSteam/Regions.py:5334-5366 -/
def v3_ps.Ii_2 : List ℤ :=
  [-12, -12, -12, -12, -12, -12, -10, -10, -10, -10, -8, -5, -5, -5, -4, -4, -4, -4, -3, -2, -2,
   -2, -2, -2, -2, 0, 0, 0, 1, 1, 2]

/-- pyXSteam/Regions.py:5367-5399 -/
def v3_ps.Ji_2 : List ℤ :=
  [0, 1, 2, 3, 5, 6, 0, 1, 2, 4, 0, 1, 2, 3, 0, 1, 2, 3, 1, 0, 1, 2, 3, 4, 12, 0, 1, 2, 0, 2, 2]

/-- pyXSteam/Regions.py:5400-5432 -/
def v3_ps.ni_2 : List ℚ :=
  [5.91599780322238e-05, -1.85465997137856e-03, 1.04190510480013e-02, 5.9864730203859e-03,
   -0.771391189901699, 1.72549765557036, -4.67076079846526e-04, 1.34533823384439e-02,
   -8.08094336805495e-02, 0.508139374365767, 1.28584643361683e-03, -1.63899353915435,
   5.86938199318063, -2.92466667918613, -6.14076301499537e-03, 5.76199014049172,
   -12.1613320606788, 1.67637540957944, -7.44135838773463, 3.78168091437659e-02, 4.01432203027688,
   16.0279837479185, 3.17848779347728, -3.58362310304853, -1159952.60446827, 0.199256573577909,
   -0.122270624794624, -19.1449143716586, -1.50448002905284e-02, 14.6407900162154,
   -3.2747778718823]

/-- pyXSteam/Regions.py:5223-5439 -/
noncomputable def v3_ps (F : FP) (p : Num) (s : Num) : Py Num := do
  let v3_ps ← if s ≤ (F.lit 4.41202148223476) then do
    let Pi ← F.div p (Num.ofInt 100)
    let Sigma ← F.div s (F.lit 4.4)
    let omega := (Num.ofInt 0)
    let omega ← forRange 0 28 omega fun i omega => do
      let omega := (F.add omega (F.mul (F.mul (F.lit (← idx v3_ps.ni i)) (← F.pow (F.add Pi (F.lit 0.187)) (Num.ofInt (← idx v3_ps.Ii i)))) (← F.pow (F.sub Sigma (F.lit 0.755)) (Num.ofInt (← idx v3_ps.Ji i)))))
      pure omega
    let v3_ps := (F.mul omega (F.lit 0.0028))
    pure v3_ps
  else do
    let Pi ← F.div p (Num.ofInt 100)
    let Sigma ← F.div s (F.lit 5.3)
    let omega := (Num.ofInt 0)
    let omega ← forRange 0 31 omega fun i omega => do
      let omega := (F.add omega (F.mul (F.mul (F.lit (← idx v3_ps.ni_2 i)) (← F.pow (F.add Pi (F.lit 0.298)) (Num.ofInt (← idx v3_ps.Ii_2 i)))) (← F.pow (F.sub Sigma (F.lit 0.816)) (Num.ofInt (← idx v3_ps.Ji_2 i)))))
      pure omega
    let v3_ps := (F.mul omega (F.lit 0.0088))
    pure v3_ps
  pure v3_ps

/-- pyXSteam/Regions.py:5452-5486 -/
def p3_hs.Ii : List ℤ :=
  [0, 0, 0, 1, 1, 1, 1, 1, 2, 2, 3, 3, 3, 4, 4, 4, 4, 5, 6, 7, 8, 10, 10, 14, 18, 20, 22, 22, 24,
   28, 28, 32, 32]

/-- pyXSteam/Regions.py:5487-5521 -/
def p3_hs.Ji : List ℤ :=
  [0, 1, 5, 0, 3, 4, 8, 14, 6, 16, 0, 2, 3, 0, 1, 4, 5, 28, 28, 24, 1, 32, 36, 22, 28, 36, 16,
   28, 36, 16, 36, 10, 28]

/-- pyXSteam/Regions.py:5522-5556 -/
def p3_hs.ni : List ℚ :=
  [7.70889828326934, -26.0835009128688, 267.416218930389, 17.2221089496844, -293.54233214597,
   614.135601882478, -61056.2757725674, -65127225.1118219, 73591.9313521937, -11664650591.4191,
   35.5267086434461, -596.144543825955, -475.842430145708, 69.6781965359503, 335.674250377312,
   25052.6809130882, 146997.380630766, 5.38069315091534e19, 1.43619827291346e21,
   3.64985866165994e19, -2547.41561156775, 2.40120197096563e27, -3.93847464679496e29,
   1.47073407024852e24, -4.26391250432059e31, 1.94509340621077e38, 6.66212132114896e23,
   7.06777016552858e33, 1.75563621975576e41, 1.08408607429124e28, 7.30872705175151e43,
   1.5914584739887e24, 3.77121605943324e40]

/-- pyXSteam/Regions.py:5566-5602 -/
def p3_hs.Ii_2 : List ℤ :=
  [-12, -12, -12, -12, -12, -10, -10, -10, -10, -8, -8, -6, -6, -6, -6, -5, -4, -4, -4, -3, -3,
   -3, -3, -2, -2, -1, 0, 2, 2, 5, 6, 8, 10, 14, 14]

/-- pyXSteam/Regions.py:5603-5639 -/
def p3_hs.Ji_2 : List ℤ :=
  [2, 10, 12, 14, 20, 2, 10, 14, 18, 2, 8, 2, 6, 7, 8, 10, 4, 5, 8, 1, 3, 5, 6, 0, 1, 0, 3, 0, 1,
   0, 1, 1, 1, 3, 7]

/-- pyXSteam/Regions.py:5640-5676 -/
def p3_hs.ni_2 : List ℚ :=
  [1.25244360717979e-13, -1.26599322553713e-02, 5.06878030140626, 31.7847171154202,
   -391041.161399932, -9.75733406392044e-11, -18.6312419488279, 510.973543414101,
   373847.005822362, 2.99804024666572e-08, 20.0544393820342, -4.98030487662829e-06,
   -10.230180636003, 55.2819126990325, -206.211367510878, -7940.12232324823, 7.82248472028153,
   -58.6544326902468, 3550.73647696481, -1.15303107290162e-04, -1.75092403171802, 257.98168774816,
   -727.048374179467, 1.21644822609198e-04, 3.93137871762692e-02, 7.04181005909296e-03,
   -82.910820069811, -0.26517881813125, 13.7531682453991, -52.2394090753046, 2405.56298941048,
   -22736.1631268929, 89074.6343932567, -23923456.5822486, 5687958081.29714]

/-- pyXSteam/Regions.py:5442-5684 -/
noncomputable def p3_hs (F : FP) (h : Num) (s : Num) : Py Num := do
  let p3_hs ← if s < (F.lit 4.41202148223476) then do
    let Sigma ← F.div s (F.lit 4.4)
    let eta ← F.div h (Num.ofInt 2300)
    let Pi := (Num.ofInt 0)
    let Pi ← forRange 0 33 Pi fun i Pi => do
      let Pi := (F.add Pi (F.mul (F.mul (F.lit (← idx p3_hs.ni i)) (← F.pow (F.sub eta (F.lit 1.01)) (Num.ofInt (← idx p3_hs.Ii i)))) (← F.pow (F.sub Sigma (F.lit 0.75)) (Num.ofInt (← idx p3_hs.Ji i)))))
      pure Pi
    let p3_hs := (F.mul Pi (Num.ofInt 99))
    pure p3_hs
  else do
    let Sigma ← F.div s (F.lit 5.3)
    let eta ← F.div h (Num.ofInt 2800)
    let Pi := (Num.ofInt 0)
    let Pi ← forRange 0 35 Pi fun i Pi => do
      let Pi := (F.add Pi (F.mul (F.mul (F.lit (← idx p3_hs.ni_2 i)) (← F.pow (F.sub eta (F.lit 0.681)) (Num.ofInt (← idx p3_hs.Ii_2 i)))) (← F.pow (F.sub Sigma (F.lit 0.792)) (Num.ofInt (← idx p3_hs.Ji_2 i)))))
      pure Pi
    let p3_hs ← F.div (F.lit 16.6) Pi
    pure p3_hs
  pure p3_hs

end Region3

namespace Region4

/-- one pass of the `while` loop; state: hs, ps, High_Bound, Low_Bound.
pyXSteam/Regions.py:6115-6132 -/
noncomputable def h4L_p.pass (F : FP) (p : Num) :
    (Option Num × Num × Num × Num) → Py (Ctl (Option Num × Num × Num × Num))
  | (hs, ps, High_Bound, Low_Bound) => do
    if (Num.fabs (F.sub p ps)) > (F.lit 0.00001) then do
      let last_ps := ps
      let hs ← F.div (F.add Low_Bound High_Bound) (Num.ofInt 2)
      let ps ← RegionBorders.p3sat_h F hs
      if Num.feq last_ps ps then do
        warn "h4L_p stopped iterating after %d steps because values did not converge"
        pure (.brk ((some hs), ps, High_Bound, Low_Bound))
      else do
        let (High_Bound, Low_Bound) ← if ps > p then do
          let High_Bound := hs
          pure (High_Bound, Low_Bound)
        else do
          let Low_Bound := hs
          pure (High_Bound, Low_Bound)
        pure (.next ((some hs), ps, High_Bound, Low_Bound))
    else do
      pure (.brk (hs, ps, High_Bound, Low_Bound))

/-- pyXSteam/Regions.py:6102-6136 -/
noncomputable def h4L_p (F : FP) (p : Num) : Py Num := do
  let h4L_p ← if (p > (F.lit 0.000611657)) ∧ (p < (F.lit 22.06395)) then do
    let Ts ← Region4.T4_p F p
    let h4L_p ← if p < (F.lit 16.529) then do
      let h4L_p ← Region1.h1_pT F p Ts
      pure h4L_p
    else do
      let Low_Bound := (F.lit 1670.858218)
      let High_Bound := (F.lit 2087.23500164864)
      let ps := (Num.ofInt (-1000))
      let (hs, ps, High_Bound, Low_Bound) ← whileLoop (Region4.h4L_p.pass F p) (none, ps, High_Bound, Low_Bound)
      let h4L_p ← getVar hs
      pure h4L_p
    pure h4L_p
  else do
    let h4L_p := (Num.ofInt (-99999))
    pure h4L_p
  pure h4L_p

/-- one pass of the `while` loop; state: hs, ps, High_Bound, Low_Bound.
pyXSteam/Regions.py:6152-6169 -/
noncomputable def h4V_p.pass (F : FP) (p : Num) :
    (Option Num × Num × Num × Num) → Py (Ctl (Option Num × Num × Num × Num))
  | (hs, ps, High_Bound, Low_Bound) => do
    if (Num.fabs (F.sub p ps)) > (F.lit 0.000001) then do
      let last_ps := ps
      let hs ← F.div (F.add Low_Bound High_Bound) (Num.ofInt 2)
      let ps ← RegionBorders.p3sat_h F hs
      if Num.feq last_ps ps then do
        warn "h4V_p stopped iterating after %d steps because values did not converge"
        pure (.brk ((some hs), ps, High_Bound, Low_Bound))
      else do
        let (High_Bound, Low_Bound) ← if ps < p then do
          let High_Bound := hs
          pure (High_Bound, Low_Bound)
        else do
          let Low_Bound := hs
          pure (High_Bound, Low_Bound)
        pure (.next ((some hs), ps, High_Bound, Low_Bound))
    else do
      pure (.brk (hs, ps, High_Bound, Low_Bound))

/-- pyXSteam/Regions.py:6139-6173 -/
noncomputable def h4V_p (F : FP) (p : Num) : Py Num := do
  let h4V_p ← if (p > (F.lit 0.000611657)) ∧ (p < (F.lit 22.06395)) then do
    let Ts ← Region4.T4_p F p
    let h4V_p ← if p < (F.lit 16.529) then do
      let h4V_p ← Region2.h2_pT F p Ts
      pure h4V_p
    else do
      let Low_Bound := (F.lit 2087.23500164864)
      let High_Bound := (F.add (F.lit 2563.592004) (Num.ofInt 5))
      let ps := (Num.ofInt (-1000))
      let (hs, ps, High_Bound, Low_Bound) ← whileLoop (Region4.h4V_p.pass F p) (none, ps, High_Bound, Low_Bound)
      let h4V_p ← getVar hs
      pure h4V_p
    pure h4V_p
  else do
    let h4V_p := (Num.ofInt (-99999))
    pure h4V_p
  pure h4V_p

end Region4

namespace Region3

/-- one pass of the `while` loop; state: hs, Ts, High_Bound, Low_Bound.
pyXSteam/Regions.py:5711-5728 -/
noncomputable def h3_pT.pass (F : FP) (T : Num) (p : Num) :
    (Option Num × Num × Num × Num) → Py (Ctl (Option Num × Num × Num × Num))
  | (hs, Ts, High_Bound, Low_Bound) => do
    if (Num.fabs (F.sub T Ts)) > (F.lit 0.00001) then do
      let last_Ts := Ts
      let hs ← F.div (F.add Low_Bound High_Bound) (Num.ofInt 2)
      let Ts ← Region3.T3_ph F p hs
      if Num.feq last_Ts Ts then do
        warn "h3_pT stopped iterating after %d steps because values did not converge"
        pure (.brk ((some hs), Ts, High_Bound, Low_Bound))
      else do
        let (High_Bound, Low_Bound) ← if Ts > T then do
          let High_Bound := hs
          pure (High_Bound, Low_Bound)
        else do
          let Low_Bound := hs
          pure (High_Bound, Low_Bound)
        pure (.next ((some hs), Ts, High_Bound, Low_Bound))
    else do
      pure (.brk (hs, Ts, High_Bound, Low_Bound))

/-- pyXSteam/Regions.py:5687-5729 -/
noncomputable def h3_pT (F : FP) (p : Num) (T : Num) : Py Num := do
  let (High_Bound, Low_Bound) ← if p < (F.lit 22.06395) then do
    let Ts ← Region4.T4_p F p
    let (High_Bound, Low_Bound) ← if T ≤ Ts then do
      let High_Bound ← Region4.h4L_p F p
      let Low_Bound ← Region1.h1_pT F p (F.lit 623.15)
      pure (High_Bound, Low_Bound)
    else do
      let Low_Bound ← Region4.h4V_p F p
      let High_Bound ← Region2.h2_pT F p (← RegionBorders.B23T_p F p)
      pure (High_Bound, Low_Bound)
    pure (High_Bound, Low_Bound)
  else do
    let Low_Bound ← Region1.h1_pT F p (F.lit 623.15)
    let High_Bound ← Region2.h2_pT F p (← RegionBorders.B23T_p F p)
    pure (High_Bound, Low_Bound)
  let Ts := (F.add T (Num.ofInt 1))
  let (hs, Ts, High_Bound, Low_Bound) ← whileLoop (Region3.h3_pT.pass F T p) (none, Ts, High_Bound, Low_Bound)
  getVar hs

/-- one pass of the `while` loop; state: Ts, ps, High_Bound, Low_Bound.
pyXSteam/Regions.py:5742-5759 -/
noncomputable def T3_prho.pass (F : FP) (p : Num) (rho : Num) :
    (Option Num × Num × Num × Num) → Py (Ctl (Option Num × Num × Num × Num))
  | (Ts, ps, High_Bound, Low_Bound) => do
    if (Num.fabs (F.sub p ps)) > (F.lit 0.00000001) then do
      let last_ps := ps
      let Ts ← F.div (F.add Low_Bound High_Bound) (Num.ofInt 2)
      let ps ← Region3.p3_rhoT F rho Ts
      if Num.feq last_ps ps then do
        warn "T3_prho stopped iterating after %d steps because values did not converge"
        pure (.brk ((some Ts), ps, High_Bound, Low_Bound))
      else do
        let (High_Bound, Low_Bound) ← if ps > p then do
          let High_Bound := Ts
          pure (High_Bound, Low_Bound)
        else do
          let Low_Bound := Ts
          pure (High_Bound, Low_Bound)
        pure (.next ((some Ts), ps, High_Bound, Low_Bound))
    else do
      pure (.brk (Ts, ps, High_Bound, Low_Bound))

/-- pyXSteam/Regions.py:5732-5760 -/
noncomputable def T3_prho (F : FP) (p : Num) (rho : Num) : Py Num := do
  let Low_Bound := (F.lit 623.15)
  let High_Bound := (F.lit 1073.15)
  let ps := (Num.ofInt (-1000))
  let (Ts, ps, High_Bound, Low_Bound) ← whileLoop (Region3.T3_prho.pass F p rho) (none, ps, High_Bound, Low_Bound)
  getVar Ts

end Region3

namespace Region4

/-- pyXSteam/Regions.py:5769-5780 -/
noncomputable def p4_T (F : FP) (T : Num) : Py Num := do
  let teta := (F.sub T (← F.div (F.lit 0.23855557567849) (F.sub T (F.lit 650.17534844798))))
  let a := (F.sub (F.add (← F.pow teta (Num.ofInt 2)) (F.mul (F.lit 1167.0521452767) teta)) (F.lit 724213.16703206))
  let B := (F.sub (F.add (F.mul (Num.neg (F.lit 17.073846940092)) (← F.pow teta (Num.ofInt 2))) (F.mul (F.lit 12020.82470247) teta)) (F.lit 3232555.0322333))
  let C := (F.add (F.sub (F.mul (F.lit 14.91510861353) (← F.pow teta (Num.ofInt 2))) (F.mul (F.lit 4823.2657361591) teta)) (F.lit 405113.40542057))
  F.pow (← F.div (F.mul (Num.ofInt 2) C) (F.add (Num.neg B) (← F.pow (F.sub (← F.pow B (Num.ofInt 2)) (F.mul (F.mul (Num.ofInt 4) a) C)) (F.lit 0.5)))) (Num.ofInt 4)

/-- pyXSteam/Regions.py:5816-5844 -/
def h4_s.Ii : List ℤ :=
  [0, 0, 1, 1, 2, 2, 3, 3, 4, 4, 4, 5, 5, 7, 8, 12, 12, 14, 14, 16, 20, 20, 22, 24, 28, 32, 32]

/-- pyXSteam/Regions.py:5845-5873 -/
def h4_s.Ji : List ℤ :=
  [14, 36, 3, 16, 0, 5, 4, 36, 4, 16, 24, 18, 24, 1, 4, 2, 4, 1, 22, 10, 12, 28, 8, 3, 0, 6, 8]

/-- pyXSteam/Regions.py:5874-5902 -/
def h4_s.ni : List ℚ :=
  [0.332171191705237, 6.11217706323496e-04, -8.82092478906822, -0.45562819254325,
   -2.63483840850452e-05, -22.3949661148062, -4.28398660164013, -0.616679338856916,
   -14.682303110404, 284.523138727299, -113.398503195444, 1156.71380760859, 395.551267359325,
   -1.54891257229285, 19.4486637751291, -3.57915139457043, -3.35369414148819, -0.66442679633246,
   32332.1885383934, 3317.66744667084, -22350.1257931087, 5739538.75852936, 173.226193407919,
   -3.63968822121321e-02, 8.34596332878346e-07, 5.03611916682674, 65.5444787064505]

/-- pyXSteam/Regions.py:5913-5913 -/
def h4_s.Ii_2 : List ℤ :=
  [0, 0, 0, 0, 2, 3, 4, 4, 5, 5, 6, 7, 7, 7, 10, 10, 10, 32, 32]

/-- pyXSteam/Regions.py:5914-5914 -/
def h4_s.Ji_2 : List ℤ :=
  [1, 4, 10, 16, 1, 36, 3, 16, 20, 36, 4, 2, 28, 32, 14, 32, 36, 0, 6]

/-- pyXSteam/Regions.py:5915-5935 -/
def h4_s.ni_2 : List ℚ :=
  [0.822673364673336, 0.181977213534479, -0.011200026031362, -7.46778287048033e-04,
   -0.179046263257381, 4.24220110836657e-02, -0.341355823438768, -2.09881740853565,
   -8.22477343323596, -4.99684082076008, 0.191413958471069, 5.81062241093136e-02,
   -1655.05498701029, 1588.70443421201, -85.0623535172818, -31771.4386511207, -94589.0406632871,
   -1.3927384708869e-06, 0.63105253224098]

/-- pyXSteam/Regions.py:5947-5947 -/
def h4_s.Ii_3 : List ℤ :=
  [0, 0, 0, 1, 1, 5, 6, 7, 8, 8, 12, 16, 22, 22, 24, 36]

/-- pyXSteam/Regions.py:5948-5948 -/
def h4_s.Ji_3 : List ℤ :=
  [0, 3, 4, 0, 12, 36, 12, 16, 2, 20, 32, 36, 2, 32, 7, 20]

/-- pyXSteam/Regions.py:5949-5966 -/
def h4_s.ni_3 : List ℚ :=
  [1.04351280732769, -2.27807912708513, 1.80535256723202, 0.420440834792042, -105721.24483466,
   4.36911607493884e24, -328032702839.753, -6.7868676080427e15, 7439.57464645363,
   -3.56896445355761e19, 1.67590585186801e31, -3.55028625419105e37, 396611982166.538,
   -4.14716268484468e40, 3.59080103867382e18, -1.16994334851995e40]

/-- pyXSteam/Regions.py:5975-6006 -/
def h4_s.Ii_4 : List ℤ :=
  [1, 1, 2, 2, 4, 4, 7, 8, 8, 10, 12, 12, 18, 20, 24, 28, 28, 28, 28, 28, 32, 32, 32, 32, 32, 36,
   36, 36, 36, 36]

/-- pyXSteam/Regions.py:6007-6038 -/
def h4_s.Ji_4 : List ℤ :=
  [8, 24, 4, 32, 1, 2, 7, 5, 12, 1, 0, 7, 10, 12, 32, 8, 12, 20, 22, 24, 2, 7, 12, 14, 24, 10,
   12, 20, 22, 28]

/-- pyXSteam/Regions.py:6039-6070 -/
def h4_s.ni_4 : List ℚ :=
  [-524.581170928788, -9269472.18142218, -237.385107491666, 21077015581.2776, -23.9494562010986,
   221.802480294197, -5104725.33393438, 1249813.96109147, 2000084369.96201, -815.158509791035,
   -157.612685637523, -11420042233.2791, 6.62364680776872e15, -2.27622818296144e18,
   -1.71048081348406e31, 6.60788766938091e15, 1.66320055886021e22, -2.18003784381501e29,
   -7.87276140295618e29, 1.51062329700346e31, 7957321.70300541, 1.31957647355347e15,
   -3.2509706829914e23, -4.18600611419248e25, 2.97478906557467e34, -9.53588761745473e19,
   1.66957699620939e24, -1.75407764869978e32, 3.47581490626396e34, -7.10971318427851e38]

/-- pyXSteam/Regions.py:5806-6082 -/
noncomputable def h4_s (F : FP) (s : Num) : Py Num := do
  let h4_s ← if (s > (Num.neg (F.lit 0.0001545495919))) ∧ (s ≤ (F.lit 3.77828134)) then do
    let Sigma ← F.div s (F.lit 3.8)
    let eta := (Num.ofInt 0)
    let eta ← forRange 0 27 eta fun i eta => do
      let eta := (F.add eta (F.mul (F.mul (F.lit (← idx h4_s.ni i)) (← F.pow (F.sub Sigma (F.lit 1.09)) (Num.ofInt (← idx h4_s.Ii i)))) (← F.pow (F.add Sigma (F.lit 0.0000366)) (Num.ofInt (← idx h4_s.Ji i)))))
      pure eta
    let h4_s := (F.mul eta (Num.ofInt 1700))
    pure h4_s
  else do
    let h4_s ← if (s > (F.lit 3.77828134)) ∧ (s ≤ (F.lit 4.41202148223476)) then do
      let Sigma ← F.div s (F.lit 3.8)
      let eta := (Num.ofInt 0)
      let eta ← forRange 0 19 eta fun i eta => do
        let eta := (F.add eta (F.mul (F.mul (F.lit (← idx h4_s.ni_2 i)) (← F.pow (F.sub Sigma (F.lit 1.09)) (Num.ofInt (← idx h4_s.Ii_2 i)))) (← F.pow (F.add Sigma (F.lit 0.0000366)) (Num.ofInt (← idx h4_s.Ji_2 i)))))
        pure eta
      let h4_s := (F.mul eta (Num.ofInt 1700))
      pure h4_s
    else do
      let h4_s ← if (s > (F.lit 4.41202148223476)) ∧ (s ≤ (F.lit 5.85)) then do
        let Sigma ← F.div s (F.lit 5.9)
        let eta := (Num.ofInt 0)
        let eta ← forRange 0 16 eta fun i eta => do
          let eta := (F.add eta (F.mul (F.mul (F.lit (← idx h4_s.ni_3 i)) (← F.pow (F.sub Sigma (F.lit 1.02)) (Num.ofInt (← idx h4_s.Ii_3 i)))) (← F.pow (F.sub Sigma (F.lit 0.726)) (Num.ofInt (← idx h4_s.Ji_3 i)))))
          pure eta
        let h4_s := (F.mul (← F.pow eta (Num.ofInt 4)) (Num.ofInt 2800))
        pure h4_s
      else do
        let h4_s ← if (s > (F.lit 5.85)) ∧ (s < (F.lit 9.155759395)) then do
          let Sigma1 ← F.div s (F.lit 5.21)
          let Sigma2 ← F.div s (F.lit 9.2)
          let eta := (Num.ofInt 0)
          let eta ← forRange 0 30 eta fun i eta => do
            let eta := (F.add eta (F.mul (F.mul (F.lit (← idx h4_s.ni_4 i)) (← F.pow (F.sub (← F.div (Num.ofInt 1) Sigma1) (F.lit 0.513)) (Num.ofInt (← idx h4_s.Ii_4 i)))) (← F.pow (F.sub Sigma2 (F.lit 0.524)) (Num.ofInt (← idx h4_s.Ji_4 i)))))
            pure eta
          let h4_s := (F.mul (← F.exp eta) (Num.ofInt 2800))
          pure h4_s
        else do
          let h4_s := (Num.ofInt (-99999))
          pure h4_s
        pure h4_s
      pure h4_s
    pure h4_s
  pure h4_s

/-- pyXSteam/Regions.py:6085-6099 -/
noncomputable def p4_s (F : FP) (s : Num) : Py Num := do
  let h_sat ← Region4.h4_s F s
  let p4_s ← if (s > (Num.neg (F.lit 0.0001545495919))) ∧ (s ≤ (F.lit 3.77828134)) then do
    let p4_s ← Region1.p1_hs F h_sat s
    pure p4_s
  else do
    let p4_s ← if (s > (F.lit 3.77828134)) ∧ (s ≤ (F.lit 5.210887663)) then do
      let p4_s ← Region3.p3_hs F h_sat s
      pure p4_s
    else do
      let p4_s ← if (s > (F.lit 5.210887663)) ∧ (s < (F.lit 9.155759395)) then do
        let p4_s ← Region2.p2_hs F h_sat s
        pure p4_s
      else do
        let p4_s := (Num.ofInt (-99999))
        pure p4_s
      pure p4_s
    pure p4_s
  pure p4_s

/-- pyXSteam/Regions.py:6176-6189 -/
noncomputable def x4_ph (F : FP) (p : Num) (h : Num) : Py Num := do
  let h4v ← Region4.h4V_p F p
  let h4L ← Region4.h4L_p F p
  let x4_ph ← if h > h4v then do
    let x4_ph := (Num.ofInt 1)
    pure x4_ph
  else do
    let x4_ph ← if h < h4L then do
      let x4_ph := (Num.ofInt 0)
      pure x4_ph
    else do
      let x4_ph ← F.div (F.sub h h4L) (F.sub h4v h4L)
      pure x4_ph
    pure x4_ph
  pure x4_ph

/-- pyXSteam/Regions.py:6192-6210 -/
noncomputable def x4_ps (F : FP) (p : Num) (s : Num) : Py Num := do
  let (ssv, ssL) ← if p < (F.lit 16.529) then do
    let ssv ← Region2.s2_pT F p (← Region4.T4_p F p)
    let ssL ← Region1.s1_pT F p (← Region4.T4_p F p)
    pure (ssv, ssL)
  else do
    let ssv ← Region3.s3_rhoT F (← F.div (Num.ofInt 1) (← Region3.v3_ph F p (← Region4.h4V_p F p))) (← Region4.T4_p F p)
    let ssL ← Region3.s3_rhoT F (← F.div (Num.ofInt 1) (← Region3.v3_ph F p (← Region4.h4L_p F p))) (← Region4.T4_p F p)
    pure (ssv, ssL)
  let x4_ps ← if s < ssL then do
    let x4_ps := (Num.ofInt 0)
    pure x4_ps
  else do
    let x4_ps ← if s > ssv then do
      let x4_ps := (Num.ofInt 1)
      pure x4_ps
    else do
      let x4_ps ← F.div (F.sub s ssL) (F.sub ssv ssL)
      pure x4_ps
    pure x4_ps
  pure x4_ps

/-- pyXSteam/Regions.py:6222-6259 -/
def T4_hs.Ii : List ℤ :=
  [0, 0, 0, 1, 1, 1, 1, 2, 2, 2, 3, 3, 3, 3, 4, 4, 5, 5, 5, 5, 6, 6, 6, 8, 10, 10, 12, 14, 14,
   16, 16, 18, 18, 18, 20, 28]

/-- pyXSteam/Regions.py:6260-6297 -/
def T4_hs.Ji : List ℤ :=
  [0, 3, 12, 0, 1, 2, 5, 0, 5, 8, 0, 2, 3, 4, 0, 1, 1, 2, 4, 16, 6, 8, 22, 1, 20, 36, 24, 1, 28,
   12, 32, 14, 22, 36, 24, 36]

/-- pyXSteam/Regions.py:6298-6335 -/
def T4_hs.ni : List ℚ :=
  [0.179882673606601, -0.267507455199603, 1.162767226126, 0.147545428713616, -0.512871635973248,
   0.421333567697984, 0.56374952218987, 0.429274443819153, -3.3570455214214, 10.8890916499278,
   -0.248483390456012, 0.30415322190639, -0.494819763939905, 1.07551674933261,
   7.33888415457688e-02, 1.40170545411085e-02, -0.106110975998808, 1.68324361811875e-02,
   1.25028363714877, 1013.16840309509, -1.51791558000712, 52.4277865990866, 23049.5545563912,
   2.49459806365456e-02, 2107964.67412137, 366836848.613065, -144814105.365163,
   -1.7927637300359e-03, 4899556021.00459, 471.262212070518, -82929439019.8652, -1715.45662263191,
   3557776.82973575, 586062760258.436, -12988763.5078195, 31724744937.1057]

/-- one pass of the `while` loop; state: PL, hL, High_Bound, Low_Bound.
pyXSteam/Regions.py:6349-6358 -/
noncomputable def T4_hs.pass (F : FP) (h : Num) :
    (Option Num × Num × Num × Num) → Py (Ctl (Option Num × Num × Num × Num))
  | (PL, hL, High_Bound, Low_Bound) => do
    if ((Num.fabs (F.sub hL h)) > (F.lit 0.00001)) ∧ ((Num.fabs (F.sub High_Bound Low_Bound)) > (F.lit 0.0001)) then do
      let PL ← F.div (F.add Low_Bound High_Bound) (Num.ofInt 2)
      let Ts ← Region4.T4_p F PL
      let hL ← Region1.h1_pT F PL Ts
      let (High_Bound, Low_Bound) ← if hL > h then do
        let High_Bound := PL
        pure (High_Bound, Low_Bound)
      else do
        let Low_Bound := PL
        pure (High_Bound, Low_Bound)
      pure (.next ((some PL), hL, High_Bound, Low_Bound))
    else do
      pure (.brk (PL, hL, High_Bound, Low_Bound))

/-- one pass of the `while` loop; state: p, sss, High_Bound, Low_Bound.
pyXSteam/Regions.py:6366-6385 -/
noncomputable def T4_hs.pass2 (F : FP) (h : Num) (s : Num) :
    (Option Num × Num × Num × Num) → Py (Ctl (Option Num × Num × Num × Num))
  | (p, sss, High_Bound, Low_Bound) => do
    if ((Num.fabs (F.sub s sss)) > (F.lit 0.000001)) ∧ ((Num.fabs (F.sub High_Bound Low_Bound)) > (F.lit 0.0000001)) then do
      let p ← F.div (F.add Low_Bound High_Bound) (Num.ofInt 2)
      let Ts ← Region4.T4_p F p
      let xs ← Region4.x4_ph F p h
      let (s4v, s4L) ← if p < (F.lit 16.529) then do
        let s4v ← Region2.s2_pT F p Ts
        let s4L ← Region1.s1_pT F p Ts
        pure (s4v, s4L)
      else do
        let v4v ← Region3.v3_ph F p (← Region4.h4V_p F p)
        let s4v ← Region3.s3_rhoT F (← F.div (Num.ofInt 1) v4v) Ts
        let v4L ← Region3.v3_ph F p (← Region4.h4L_p F p)
        let s4L ← Region3.s3_rhoT F (← F.div (Num.ofInt 1) v4L) Ts
        pure (s4v, s4L)
      let sss := (F.add (F.mul xs s4v) (F.mul (F.sub (Num.ofInt 1) xs) s4L))
      let (High_Bound, Low_Bound) ← if sss < s then do
        let High_Bound := p
        pure (High_Bound, Low_Bound)
      else do
        let Low_Bound := p
        pure (High_Bound, Low_Bound)
      pure (.next ((some p), sss, High_Bound, Low_Bound))
    else do
      pure (.brk (p, sss, High_Bound, Low_Bound))

/-- pyXSteam/Regions.py:6213-6387 -/
noncomputable def T4_hs (F : FP) (h : Num) (s : Num) : Py Num := do
  let T4_hs ← if (s > (F.lit 5.210887825)) ∧ (s < (F.lit 9.15546555571324)) then do
    let Sigma ← F.div s (F.lit 9.2)
    let eta ← F.div h (Num.ofInt 2800)
    let teta := (Num.ofInt 0)
    let teta ← forRange 0 36 teta fun i teta => do
      let teta := (F.add teta (F.mul (F.mul (F.lit (← idx T4_hs.ni i)) (← F.pow (F.sub eta (F.lit 0.119)) (Num.ofInt (← idx T4_hs.Ii i)))) (← F.pow (F.sub Sigma (F.lit 1.07)) (Num.ofInt (← idx T4_hs.Ji i)))))
      pure teta
    let T4_hs := (F.mul teta (Num.ofInt 550))
    pure T4_hs
  else do
    let PL ← (show Py (Option Num) from do
      if (s > (Num.neg (F.lit 0.0001545495919))) ∧ (s ≤ (F.lit 3.77828134)) then do
        let Low_Bound := (F.lit 0.000611)
        let High_Bound := (F.lit 165.291642526045)
        let hL := (Num.ofInt (-1000))
        let (PL, hL, High_Bound, Low_Bound) ← whileLoop (Region4.T4_hs.pass F h) (none, hL, High_Bound, Low_Bound)
        pure PL
      else do
        let PL ← (show Py (Option Num) from do
          if (s > (F.lit 3.77828134)) ∧ (s ≤ (F.lit 4.41202148223476)) then do
            let PL ← RegionBorders.p3sat_h F h
            pure (some PL)
          else do
            let PL ← (show Py (Option Num) from do
              if (s > (F.lit 4.41202148223476)) ∧ (s ≤ (F.lit 5.210887663)) then do
                let PL ← RegionBorders.p3sat_h F h
                pure (some PL)
              else do
                pure none)
            pure PL)
        pure PL)
    let Low_Bound := (F.lit 0.000611)
    let High_Bound ← getVar PL
    let sss := (Num.ofInt (-1000))
    let (p, sss, High_Bound, Low_Bound) ← whileLoop (Region4.T4_hs.pass2 F h s) (none, sss, High_Bound, Low_Bound)
    let T4_hs ← Region4.T4_p F (← getVar p)
    pure T4_hs
  pure T4_hs

end Region4

namespace Region5

/-- pyXSteam/Regions.py:6403-6403 -/
def h5_pT.Ji0 : List ℤ :=
  [0, 1, -3, -2, -1, 2]

/-- pyXSteam/Regions.py:6404-6411 -/
def h5_pT.ni0 : List ℚ :=
  [-13.179983674201, 6.8540841634434, -0.024805148933466, 0.36901534980333, -3.1161318213925,
   -0.32961626538917]

/-- pyXSteam/Regions.py:6412-6412 -/
def h5_pT.Iir : List ℤ :=
  [1, 1, 1, 2, 3]

/-- pyXSteam/Regions.py:6413-6413 -/
def h5_pT.Jir : List ℤ :=
  [0, 1, 3, 9, 3]

/-- pyXSteam/Regions.py:6414-6420 -/
def h5_pT.nir : List ℚ :=
  [-1.2563183589592e-04, 2.1774678714571e-03, -0.004594282089991, -3.9724828359569e-06,
   1.2919228289784e-07]

/-- pyXSteam/Regions.py:6396-6432 -/
noncomputable def h5_pT (F : FP) (p : Num) (T : Num) : Py Num := do
  let R := (F.lit Constants.SPECIFIC_GAS_CONSTANT)
  let tau ← F.div (Num.ofInt 1000) T
  let Pi := p
  let gamma0_tau := (Num.ofInt 0)
  let gamma0_tau ← forRange 0 6 gamma0_tau fun i gamma0_tau => do
    let gamma0_tau := (F.add gamma0_tau (F.mul (F.mul (F.lit (← idx h5_pT.ni0 i)) (Num.ofInt (← idx h5_pT.Ji0 i))) (← F.pow tau (Num.ofInt ((← idx h5_pT.Ji0 i) - 1)))))
    pure gamma0_tau
  let gammar_tau := (Num.ofInt 0)
  let gammar_tau ← forRange 0 5 gammar_tau fun i gammar_tau => do
    let gammar_tau := (F.add gammar_tau (F.mul (F.mul (F.mul (F.lit (← idx h5_pT.nir i)) (← F.pow Pi (Num.ofInt (← idx h5_pT.Iir i)))) (Num.ofInt (← idx h5_pT.Jir i))) (← F.pow tau (Num.ofInt ((← idx h5_pT.Jir i) - 1)))))
    pure gammar_tau
  pure (F.mul (F.mul (F.mul R T) tau) (F.add gamma0_tau gammar_tau))

/-- pyXSteam/Regions.py:6442-6442 -/
def v5_pT.Iir : List ℤ :=
  [1, 1, 1, 2, 3]

/-- pyXSteam/Regions.py:6443-6443 -/
def v5_pT.Jir : List ℤ :=
  [0, 1, 3, 9, 3]

/-- pyXSteam/Regions.py:6444-6450 -/
def v5_pT.nir : List ℚ :=
  [-1.2563183589592e-04, 2.1774678714571e-03, -0.004594282089991, -3.9724828359569e-06,
   1.2919228289784e-07]

/-- pyXSteam/Regions.py:6435-6458 -/
noncomputable def v5_pT (F : FP) (p : Num) (T : Num) : Py Num := do
  let R := (F.lit Constants.SPECIFIC_GAS_CONSTANT)
  let tau ← F.div (Num.ofInt 1000) T
  let Pi := p
  let gamma0_pi ← F.div (Num.ofInt 1) Pi
  let gammar_pi := (Num.ofInt 0)
  let gammar_pi ← forRange 0 5 gammar_pi fun i gammar_pi => do
    let gammar_pi := (F.add gammar_pi (F.mul (F.mul (F.mul (F.lit (← idx v5_pT.nir i)) (Num.ofInt (← idx v5_pT.Iir i))) (← F.pow Pi (Num.ofInt ((← idx v5_pT.Iir i) - 1)))) (← F.pow tau (Num.ofInt (← idx v5_pT.Jir i)))))
    pure gammar_pi
  F.div (F.mul (F.mul (← F.div (F.mul R T) p) Pi) (F.add gamma0_pi gammar_pi)) (Num.ofInt 1000)

/-- pyXSteam/Regions.py:6468-6468 -/
def u5_pT.Ji0 : List ℤ :=
  [0, 1, -3, -2, -1, 2]

/-- pyXSteam/Regions.py:6469-6476 -/
def u5_pT.ni0 : List ℚ :=
  [-13.179983674201, 6.8540841634434, -0.024805148933466, 0.36901534980333, -3.1161318213925,
   -0.32961626538917]

/-- pyXSteam/Regions.py:6477-6477 -/
def u5_pT.Iir : List ℤ :=
  [1, 1, 1, 2, 3]

/-- pyXSteam/Regions.py:6478-6478 -/
def u5_pT.Jir : List ℤ :=
  [0, 1, 3, 9, 3]

/-- pyXSteam/Regions.py:6479-6485 -/
def u5_pT.nir : List ℚ :=
  [-1.2563183589592e-04, 2.1774678714571e-03, -0.004594282089991, -3.9724828359569e-06,
   1.2919228289784e-07]

/-- pyXSteam/Regions.py:6461-6500 -/
noncomputable def u5_pT (F : FP) (p : Num) (T : Num) : Py Num := do
  let R := (F.lit Constants.SPECIFIC_GAS_CONSTANT)
  let tau ← F.div (Num.ofInt 1000) T
  let Pi := p
  let gamma0_pi ← F.div (Num.ofInt 1) Pi
  let gamma0_tau := (Num.ofInt 0)
  let gamma0_tau ← forRange 0 6 gamma0_tau fun i gamma0_tau => do
    let gamma0_tau := (F.add gamma0_tau (F.mul (F.mul (F.lit (← idx u5_pT.ni0 i)) (Num.ofInt (← idx u5_pT.Ji0 i))) (← F.pow tau (Num.ofInt ((← idx u5_pT.Ji0 i) - 1)))))
    pure gamma0_tau
  let gammar_pi := (Num.ofInt 0)
  let gammar_tau := (Num.ofInt 0)
  let (gammar_pi, gammar_tau) ← forRange 0 5 (gammar_pi, gammar_tau) fun i (gammar_pi, gammar_tau) => do
    let gammar_pi := (F.add gammar_pi (F.mul (F.mul (F.mul (F.lit (← idx u5_pT.nir i)) (Num.ofInt (← idx u5_pT.Iir i))) (← F.pow Pi (Num.ofInt ((← idx u5_pT.Iir i) - 1)))) (← F.pow tau (Num.ofInt (← idx u5_pT.Jir i)))))
    let gammar_tau := (F.add gammar_tau (F.mul (F.mul (F.mul (F.lit (← idx u5_pT.nir i)) (← F.pow Pi (Num.ofInt (← idx u5_pT.Iir i)))) (Num.ofInt (← idx u5_pT.Jir i))) (← F.pow tau (Num.ofInt ((← idx u5_pT.Jir i) - 1)))))
    pure (gammar_pi, gammar_tau)
  pure (F.mul (F.mul R T) (F.sub (F.mul tau (F.add gamma0_tau gammar_tau)) (F.mul Pi (F.add gamma0_pi gammar_pi))))

/-- pyXSteam/Regions.py:6510-6510 -/
def Cp5_pT.Ji0 : List ℤ :=
  [0, 1, -3, -2, -1, 2]

/-- pyXSteam/Regions.py:6511-6518 -/
def Cp5_pT.ni0 : List ℚ :=
  [-13.179983674201, 6.8540841634434, -0.024805148933466, 0.36901534980333, -3.1161318213925,
   -0.32961626538917]

/-- pyXSteam/Regions.py:6519-6519 -/
def Cp5_pT.Iir : List ℤ :=
  [1, 1, 1, 2, 3]

/-- pyXSteam/Regions.py:6520-6520 -/
def Cp5_pT.Jir : List ℤ :=
  [0, 1, 3, 9, 3]

/-- pyXSteam/Regions.py:6521-6527 -/
def Cp5_pT.nir : List ℚ :=
  [-1.2563183589592e-04, 2.1774678714571e-03, -0.004594282089991, -3.9724828359569e-06,
   1.2919228289784e-07]

/-- pyXSteam/Regions.py:6503-6541 -/
noncomputable def Cp5_pT (F : FP) (p : Num) (T : Num) : Py Num := do
  let R := (F.lit Constants.SPECIFIC_GAS_CONSTANT)
  let tau ← F.div (Num.ofInt 1000) T
  let Pi := p
  let gamma0_tautau := (Num.ofInt 0)
  let gamma0_tautau ← forRange 0 6 gamma0_tautau fun i gamma0_tautau => do
    let gamma0_tautau := (F.add gamma0_tautau (F.mul (F.mul (F.mul (F.lit (← idx Cp5_pT.ni0 i)) (Num.ofInt (← idx Cp5_pT.Ji0 i))) (Num.ofInt ((← idx Cp5_pT.Ji0 i) - 1))) (← F.pow tau (Num.ofInt ((← idx Cp5_pT.Ji0 i) - 2)))))
    pure gamma0_tautau
  let gammar_tautau := (Num.ofInt 0)
  let gammar_tautau ← forRange 0 5 gammar_tautau fun i gammar_tautau => do
    let gammar_tautau := (F.add gammar_tautau (F.mul (F.mul (F.mul (F.mul (F.lit (← idx Cp5_pT.nir i)) (← F.pow Pi (Num.ofInt (← idx Cp5_pT.Iir i)))) (Num.ofInt (← idx Cp5_pT.Jir i))) (Num.ofInt ((← idx Cp5_pT.Jir i) - 1))) (← F.pow tau (Num.ofInt ((← idx Cp5_pT.Jir i) - 2)))))
    pure gammar_tautau
  pure (F.mul (F.mul (Num.neg R) (← F.pow tau (Num.ofInt 2))) (F.add gamma0_tautau gammar_tautau))

/-- pyXSteam/Regions.py:6551-6551 -/
def s5_pT.Ji0 : List ℤ :=
  [0, 1, -3, -2, -1, 2]

/-- pyXSteam/Regions.py:6552-6559 -/
def s5_pT.ni0 : List ℚ :=
  [-13.179983674201, 6.8540841634434, -0.024805148933466, 0.36901534980333, -3.1161318213925,
   -0.32961626538917]

/-- pyXSteam/Regions.py:6560-6560 -/
def s5_pT.Iir : List ℤ :=
  [1, 1, 1, 2, 3]

/-- pyXSteam/Regions.py:6561-6561 -/
def s5_pT.Jir : List ℤ :=
  [0, 1, 3, 9, 3]

/-- pyXSteam/Regions.py:6562-6568 -/
def s5_pT.nir : List ℚ :=
  [-1.2563183589592e-04, 2.1774678714571e-03, -0.004594282089991, -3.9724828359569e-06,
   1.2919228289784e-07]

/-- pyXSteam/Regions.py:6544-6584 -/
noncomputable def s5_pT (F : FP) (p : Num) (T : Num) : Py Num := do
  let R := (F.lit Constants.SPECIFIC_GAS_CONSTANT)
  let tau ← F.div (Num.ofInt 1000) T
  let Pi := p
  let gamma0 ← F.log Pi
  let gamma0_tau := (Num.ofInt 0)
  let (gamma0_tau, gamma0) ← forRange 0 6 (gamma0_tau, gamma0) fun i (gamma0_tau, gamma0) => do
    let gamma0_tau := (F.add gamma0_tau (F.mul (F.mul (F.lit (← idx s5_pT.ni0 i)) (Num.ofInt (← idx s5_pT.Ji0 i))) (← F.pow tau (Num.ofInt ((← idx s5_pT.Ji0 i) - 1)))))
    let gamma0 := (F.add gamma0 (F.mul (F.lit (← idx s5_pT.ni0 i)) (← F.pow tau (Num.ofInt (← idx s5_pT.Ji0 i)))))
    pure (gamma0_tau, gamma0)
  let gammar := (Num.ofInt 0)
  let gammar_tau := (Num.ofInt 0)
  let (gammar, gammar_tau) ← forRange 0 5 (gammar, gammar_tau) fun i (gammar, gammar_tau) => do
    let gammar := (F.add gammar (F.mul (F.mul (F.lit (← idx s5_pT.nir i)) (← F.pow Pi (Num.ofInt (← idx s5_pT.Iir i)))) (← F.pow tau (Num.ofInt (← idx s5_pT.Jir i)))))
    let gammar_tau := (F.add gammar_tau (F.mul (F.mul (F.mul (F.lit (← idx s5_pT.nir i)) (← F.pow Pi (Num.ofInt (← idx s5_pT.Iir i)))) (Num.ofInt (← idx s5_pT.Jir i))) (← F.pow tau (Num.ofInt ((← idx s5_pT.Jir i) - 1)))))
    pure (gammar, gammar_tau)
  pure (F.mul R (F.sub (F.mul tau (F.add gamma0_tau gammar_tau)) (F.add gamma0 gammar)))

/-- pyXSteam/Regions.py:6594-6594 -/
def Cv5_pT.Ji0 : List ℤ :=
  [0, 1, -3, -2, -1, 2]

/-- pyXSteam/Regions.py:6595-6602 -/
def Cv5_pT.ni0 : List ℚ :=
  [-13.179983674201, 6.8540841634434, -0.024805148933466, 0.36901534980333, -3.1161318213925,
   -0.32961626538917]

/-- pyXSteam/Regions.py:6603-6603 -/
def Cv5_pT.Iir : List ℤ :=
  [1, 1, 1, 2, 3]

/-- pyXSteam/Regions.py:6604-6604 -/
def Cv5_pT.Jir : List ℤ :=
  [0, 1, 3, 9, 3]

/-- pyXSteam/Regions.py:6605-6611 -/
def Cv5_pT.nir : List ℚ :=
  [-1.2563183589592e-04, 2.1774678714571e-03, -0.004594282089991, -3.9724828359569e-06,
   1.2919228289784e-07]

/-- pyXSteam/Regions.py:6587-6640 -/
noncomputable def Cv5_pT (F : FP) (p : Num) (T : Num) : Py Num := do
  let R := (F.lit Constants.SPECIFIC_GAS_CONSTANT)
  let tau ← F.div (Num.ofInt 1000) T
  let Pi := p
  let gamma0_tautau := (Num.ofInt 0)
  let gamma0_tautau ← forRange 0 6 gamma0_tautau fun i gamma0_tautau => do
    let gamma0_tautau := (F.add gamma0_tautau (F.mul (F.mul (F.mul (F.lit (← idx Cv5_pT.ni0 i)) (Num.ofInt ((← idx Cv5_pT.Ji0 i) - 1))) (Num.ofInt (← idx Cv5_pT.Ji0 i))) (← F.pow tau (Num.ofInt ((← idx Cv5_pT.Ji0 i) - 2)))))
    pure gamma0_tautau
  let gammar_pi := (Num.ofInt 0)
  let gammar_pitau := (Num.ofInt 0)
  let gammar_pipi := (Num.ofInt 0)
  let gammar_tautau := (Num.ofInt 0)
  let (gammar_pi, gammar_pitau, gammar_pipi, gammar_tautau) ← forRange 0 5 (gammar_pi, gammar_pitau, gammar_pipi, gammar_tautau) fun i (gammar_pi, gammar_pitau, gammar_pipi, gammar_tautau) => do
    let gammar_pi := (F.add gammar_pi (F.mul (F.mul (F.mul (F.lit (← idx Cv5_pT.nir i)) (Num.ofInt (← idx Cv5_pT.Iir i))) (← F.pow Pi (Num.ofInt ((← idx Cv5_pT.Iir i) - 1)))) (← F.pow tau (Num.ofInt (← idx Cv5_pT.Jir i)))))
    let gammar_pitau := (F.add gammar_pitau (F.mul (F.mul (F.mul (F.mul (F.lit (← idx Cv5_pT.nir i)) (Num.ofInt (← idx Cv5_pT.Iir i))) (← F.pow Pi (Num.ofInt ((← idx Cv5_pT.Iir i) - 1)))) (Num.ofInt (← idx Cv5_pT.Jir i))) (← F.pow tau (Num.ofInt ((← idx Cv5_pT.Jir i) - 1)))))
    let gammar_pipi := (F.add gammar_pipi (F.mul (F.mul (F.mul (F.mul (F.lit (← idx Cv5_pT.nir i)) (Num.ofInt (← idx Cv5_pT.Iir i))) (Num.ofInt ((← idx Cv5_pT.Iir i) - 1))) (← F.pow Pi (Num.ofInt ((← idx Cv5_pT.Iir i) - 2)))) (← F.pow tau (Num.ofInt (← idx Cv5_pT.Jir i)))))
    let gammar_tautau := (F.add gammar_tautau (F.mul (F.mul (F.mul (F.mul (F.lit (← idx Cv5_pT.nir i)) (← F.pow Pi (Num.ofInt (← idx Cv5_pT.Iir i)))) (Num.ofInt (← idx Cv5_pT.Jir i))) (Num.ofInt ((← idx Cv5_pT.Jir i) - 1))) (← F.pow tau (Num.ofInt ((← idx Cv5_pT.Jir i) - 2)))))
    pure (gammar_pi, gammar_pitau, gammar_pipi, gammar_tautau)
  pure (F.mul R (F.sub (Num.neg (F.mul (← F.pow tau (Num.ofInt 2)) (F.add gamma0_tautau gammar_tautau))) (← F.div (← F.pow (F.sub (F.add (Num.ofInt 1) (F.mul Pi gammar_pi)) (F.mul (F.mul tau Pi) gammar_pitau)) (Num.ofInt 2)) (F.sub (Num.ofInt 1) (F.mul (← F.pow Pi (Num.ofInt 2)) gammar_pipi)))))

/-- pyXSteam/Regions.py:6650-6650 -/
def w5_pT.Ji0 : List ℤ :=
  [0, 1, -3, -2, -1, 2]

/-- pyXSteam/Regions.py:6651-6658 -/
def w5_pT.ni0 : List ℚ :=
  [-13.179983674201, 6.8540841634434, -0.024805148933466, 0.36901534980333, -3.1161318213925,
   -0.32961626538917]

/-- pyXSteam/Regions.py:6659-6659 -/
def w5_pT.Iir : List ℤ :=
  [1, 1, 1, 2, 3]

/-- pyXSteam/Regions.py:6660-6660 -/
def w5_pT.Jir : List ℤ :=
  [0, 1, 3, 9, 3]

/-- pyXSteam/Regions.py:6661-6667 -/
def w5_pT.nir : List ℚ :=
  [-1.2563183589592e-04, 2.1774678714571e-03, -0.004594282089991, -3.9724828359569e-06,
   1.2919228289784e-07]

/-- pyXSteam/Regions.py:6643-6702 -/
noncomputable def w5_pT (F : FP) (p : Num) (T : Num) : Py Num := do
  let R := (F.lit Constants.SPECIFIC_GAS_CONSTANT)
  let tau ← F.div (Num.ofInt 1000) T
  let Pi := p
  let gamma0_tautau := (Num.ofInt 0)
  let gamma0_tautau ← forRange 0 6 gamma0_tautau fun i gamma0_tautau => do
    let gamma0_tautau := (F.add gamma0_tautau (F.mul (F.mul (F.mul (F.lit (← idx w5_pT.ni0 i)) (Num.ofInt ((← idx w5_pT.Ji0 i) - 1))) (Num.ofInt (← idx w5_pT.Ji0 i))) (← F.pow tau (Num.ofInt ((← idx w5_pT.Ji0 i) - 2)))))
    pure gamma0_tautau
  let gammar_pi := (Num.ofInt 0)
  let gammar_pitau := (Num.ofInt 0)
  let gammar_pipi := (Num.ofInt 0)
  let gammar_tautau := (Num.ofInt 0)
  let (gammar_pi, gammar_pitau, gammar_pipi, gammar_tautau) ← forRange 0 5 (gammar_pi, gammar_pitau, gammar_pipi, gammar_tautau) fun i (gammar_pi, gammar_pitau, gammar_pipi, gammar_tautau) => do
    let gammar_pi := (F.add gammar_pi (F.mul (F.mul (F.mul (F.lit (← idx w5_pT.nir i)) (Num.ofInt (← idx w5_pT.Iir i))) (← F.pow Pi (Num.ofInt ((← idx w5_pT.Iir i) - 1)))) (← F.pow tau (Num.ofInt (← idx w5_pT.Jir i)))))
    let gammar_pitau := (F.add gammar_pitau (F.mul (F.mul (F.mul (F.mul (F.lit (← idx w5_pT.nir i)) (Num.ofInt (← idx w5_pT.Iir i))) (← F.pow Pi (Num.ofInt ((← idx w5_pT.Iir i) - 1)))) (Num.ofInt (← idx w5_pT.Jir i))) (← F.pow tau (Num.ofInt ((← idx w5_pT.Jir i) - 1)))))
    let gammar_pipi := (F.add gammar_pipi (F.mul (F.mul (F.mul (F.mul (F.lit (← idx w5_pT.nir i)) (Num.ofInt (← idx w5_pT.Iir i))) (Num.ofInt ((← idx w5_pT.Iir i) - 1))) (← F.pow Pi (Num.ofInt ((← idx w5_pT.Iir i) - 2)))) (← F.pow tau (Num.ofInt (← idx w5_pT.Jir i)))))
    let gammar_tautau := (F.add gammar_tautau (F.mul (F.mul (F.mul (F.mul (F.lit (← idx w5_pT.nir i)) (← F.pow Pi (Num.ofInt (← idx w5_pT.Iir i)))) (Num.ofInt (← idx w5_pT.Jir i))) (Num.ofInt ((← idx w5_pT.Jir i) - 1))) (← F.pow tau (Num.ofInt ((← idx w5_pT.Jir i) - 2)))))
    pure (gammar_pi, gammar_pitau, gammar_pipi, gammar_tautau)
  F.pow (← F.div (F.mul (F.mul (F.mul (Num.ofInt 1000) R) T) (F.add (F.add (Num.ofInt 1) (F.mul (F.mul (Num.ofInt 2) Pi) gammar_pi)) (F.mul (← F.pow Pi (Num.ofInt 2)) (← F.pow gammar_pi (Num.ofInt 2))))) (F.add (F.sub (Num.ofInt 1) (F.mul (← F.pow Pi (Num.ofInt 2)) gammar_pipi)) (← F.div (← F.pow (F.sub (F.add (Num.ofInt 1) (F.mul Pi gammar_pi)) (F.mul (F.mul tau Pi) gammar_pitau)) (Num.ofInt 2)) (F.mul (← F.pow tau (Num.ofInt 2)) (F.add gamma0_tautau gammar_tautau))))) (F.lit 0.5)

/-- one pass of the `while` loop; state: Ts, hs, High_Bound, Low_Bound.
pyXSteam/Regions.py:6715-6732 -/
noncomputable def T5_ph.pass (F : FP) (h : Num) (p : Num) :
    (Option Num × Num × Num × Num) → Py (Ctl (Option Num × Num × Num × Num))
  | (Ts, hs, High_Bound, Low_Bound) => do
    if (Num.fabs (F.sub h hs)) > (F.lit 0.00001) then do
      let last_hs := hs
      let Ts ← F.div (F.add Low_Bound High_Bound) (Num.ofInt 2)
      let hs ← Region5.h5_pT F p Ts
      if Num.feq last_hs hs then do
        warn "T5_ph stopped iterating after %d steps because values did not converge"
        pure (.brk ((some Ts), hs, High_Bound, Low_Bound))
      else do
        let (High_Bound, Low_Bound) ← if hs > h then do
          let High_Bound := Ts
          pure (High_Bound, Low_Bound)
        else do
          let Low_Bound := Ts
          pure (High_Bound, Low_Bound)
        pure (.next ((some Ts), hs, High_Bound, Low_Bound))
    else do
      pure (.brk (Ts, hs, High_Bound, Low_Bound))

/-- pyXSteam/Regions.py:6705-6733 -/
noncomputable def T5_ph (F : FP) (p : Num) (h : Num) : Py Num := do
  let Low_Bound := (F.lit 1073.15)
  let High_Bound := (F.lit 2273.15)
  let hs := (F.sub h (Num.ofInt 1))
  let (Ts, hs, High_Bound, Low_Bound) ← whileLoop (Region5.T5_ph.pass F h p) (none, hs, High_Bound, Low_Bound)
  getVar Ts

/-- one pass of the `while` loop; state: Ts, ss, High_Bound, Low_Bound.
pyXSteam/Regions.py:6746-6763 -/
noncomputable def T5_ps.pass (F : FP) (p : Num) (s : Num) :
    (Option Num × Num × Num × Num) → Py (Ctl (Option Num × Num × Num × Num))
  | (Ts, ss, High_Bound, Low_Bound) => do
    if (Num.fabs (F.sub s ss)) > (F.lit 0.00001) then do
      let last_ss := ss
      let Ts ← F.div (F.add Low_Bound High_Bound) (Num.ofInt 2)
      let ss ← Region5.s5_pT F p Ts
      if Num.feq last_ss ss then do
        warn "T5_ps stopped iterating after %d steps because values did not converge"
        pure (.brk ((some Ts), ss, High_Bound, Low_Bound))
      else do
        let (High_Bound, Low_Bound) ← if ss > s then do
          let High_Bound := Ts
          pure (High_Bound, Low_Bound)
        else do
          let Low_Bound := Ts
          pure (High_Bound, Low_Bound)
        pure (.next ((some Ts), ss, High_Bound, Low_Bound))
    else do
      pure (.brk (Ts, ss, High_Bound, Low_Bound))

/-- pyXSteam/Regions.py:6736-6764 -/
noncomputable def T5_ps (F : FP) (p : Num) (s : Num) : Py Num := do
  let Low_Bound := (F.lit 1073.15)
  let High_Bound := (F.lit 2273.15)
  let ss := (F.sub s (Num.ofInt 1))
  let (Ts, ss, High_Bound, Low_Bound) ← whileLoop (Region5.T5_ps.pass F p s) (none, ss, High_Bound, Low_Bound)
  getVar Ts

/-- one pass of the `while` loop; state: Ts, rhos, High_Bound, Low_Bound.
pyXSteam/Regions.py:6777-6794 -/
noncomputable def T5_prho.pass (F : FP) (p : Num) (rho : Num) :
    (Option Num × Num × Num × Num) → Py (Ctl (Option Num × Num × Num × Num))
  | (Ts, rhos, High_Bound, Low_Bound) => do
    if (Num.fabs (F.sub rho rhos)) > (F.lit 0.000001) then do
      let last_rhos := rhos
      let Ts ← F.div (F.add Low_Bound High_Bound) (Num.ofInt 2)
      let rhos ← F.div (Num.ofInt 1) (← Region2.v2_pT F p Ts)
      if Num.feq last_rhos rhos then do
        warn "T5_prho stopped iterating after %d steps because values did not converge"
        pure (.brk ((some Ts), rhos, High_Bound, Low_Bound))
      else do
        let (High_Bound, Low_Bound) ← if rhos < rho then do
          let High_Bound := Ts
          pure (High_Bound, Low_Bound)
        else do
          let Low_Bound := Ts
          pure (High_Bound, Low_Bound)
        pure (.next ((some Ts), rhos, High_Bound, Low_Bound))
    else do
      pure (.brk (Ts, rhos, High_Bound, Low_Bound))

/-- pyXSteam/Regions.py:6767-6795 -/
noncomputable def T5_prho (F : FP) (p : Num) (rho : Num) : Py Num := do
  let Low_Bound := (F.lit 1073.15)
  let High_Bound := (F.lit 2073.15)
  let rhos := (Num.ofInt (-1000))
  let (Ts, rhos, High_Bound, Low_Bound) ← whileLoop (Region5.T5_prho.pass F p rho) (none, rhos, High_Bound, Low_Bound)
  getVar Ts

end Region5

namespace IAPWS_R14

/-- pyXSteam/IAPWS_R14.py:27-27 -/
def pmelt_T_iceIh.a : List ℚ :=
  [0.119539337e7, 0.808183159e5, 0.333826860e4]

/-- pyXSteam/IAPWS_R14.py:28-28 -/
def pmelt_T_iceIh.b : List ℚ :=
  [0.300000e1, 0.257500e2, 0.103750e3]

/-- pyXSteam/IAPWS_R14.py:20-33 -/
noncomputable def pmelt_T_iceIh (F : FP) (T : Num) : Py Num := do
  let T_star := (F.lit 273.16)
  let p_star := (F.lit 611.657e-6)
  let theta ← F.div T T_star
  let temp_sum := (Num.ofInt 0)
  let temp_sum ← forRange 0 3 temp_sum fun i temp_sum => do
    let temp_sum := F.add temp_sum (F.mul (F.lit (← idx pmelt_T_iceIh.a i)) (F.sub (Num.ofInt 1) (← F.pow theta (F.lit (← idx pmelt_T_iceIh.b i)))))
    pure temp_sum
  let pi_melt := (F.add (Num.ofInt 1) temp_sum)
  pure (F.mul pi_melt p_star)

/-- pyXSteam/IAPWS_R14.py:36-44 -/
noncomputable def pmelt_T_iceIII (F : FP) (T : Num) : Py Num := do
  let T_star := (F.lit 251.165)
  let p_star := (F.lit 208.566)
  let theta ← F.div T T_star
  let pi_melt := (F.sub (Num.ofInt 1) (F.mul (F.lit 0.299948) (F.sub (F.lit 1.0) (← F.pow theta (Num.ofInt 60)))))
  pure (F.mul pi_melt p_star)

/-- pyXSteam/IAPWS_R14.py:47-55 -/
noncomputable def pmelt_T_iceV (F : FP) (T : Num) : Py Num := do
  let T_star := (F.lit 256.164)
  let p_star := (F.lit 350.1)
  let theta ← F.div T T_star
  let pi_melt := (F.sub (Num.ofInt 1) (F.mul (F.lit 1.18721) (F.sub (F.lit 1.0) (← F.pow theta (Num.ofInt 8)))))
  pure (F.mul pi_melt p_star)

/-- pyXSteam/IAPWS_R14.py:58-66 -/
noncomputable def pmelt_T_iceVI (F : FP) (T : Num) : Py Num := do
  let T_star := (F.lit 273.31)
  let p_star := (F.lit 632.4)
  let theta ← F.div T T_star
  let pi_melt := (F.sub (Num.ofInt 1) (F.mul (F.lit 1.07476) (F.sub (F.lit 1.0) (← F.pow theta (F.lit 4.6)))))
  pure (F.mul pi_melt p_star)

/-- pyXSteam/IAPWS_R14.py:69-80 -/
noncomputable def pmelt_T_iceVII (F : FP) (T : Num) : Py Num := do
  let T_star := (F.lit 355.0)
  let p_star := (F.lit 2216.0)
  let theta ← F.div T T_star
  let p1 := (F.mul (F.lit 0.173683e1) (F.sub (Num.ofInt 1) (← F.pow theta (Num.ofInt (-1)))))
  let p2 := (F.mul (F.lit 0.544606e-1) (F.sub (Num.ofInt 1) (← F.pow theta (Num.ofInt 5))))
  let p3 := (F.mul (F.lit 0.806106e-7) (F.sub (Num.ofInt 1) (← F.pow theta (Num.ofInt 22))))
  let pi_melt ← F.exp (F.add (F.sub p1 p2) p3)
  pure (F.mul pi_melt p_star)

/-- pyXSteam/IAPWS_R14.py:89-89 -/
def psubl_T.a : List ℚ :=
  [-0.212144006e2, 0.273203819e2, -0.610598130e1]

/-- pyXSteam/IAPWS_R14.py:90-90 -/
def psubl_T.b : List ℚ :=
  [0.333333333e-2, 0.120666667e1, 0.170333333e1]

/-- pyXSteam/IAPWS_R14.py:83-96 -/
noncomputable def psubl_T (F : FP) (T : Num) : Py Num := do
  let T_star := (F.lit 273.16)
  let p_star := (F.lit 611.657e-6)
  let theta ← F.div T T_star
  let temp_sum := (Num.ofInt 0)
  let temp_sum ← forRange 0 3 temp_sum fun i temp_sum => do
    let temp_sum := F.add temp_sum (F.mul (F.lit (← idx psubl_T.a i)) (← F.pow theta (F.lit (← idx psubl_T.b i))))
    pure temp_sum
  let pi_subl ← F.exp (F.mul (← F.pow theta (Num.ofInt (-1))) temp_sum)
  pure (F.mul pi_subl p_star)

end IAPWS_R14

namespace IAPWS_R4

/-- pyXSteam/IAPWS_R4.py:34-34 -/
def myHW_rhoT_R4.A : List ℚ :=
  [1.0, 0.940695, 0.578377, -0.202044]

/-- pyXSteam/IAPWS_R4.py:41-49 -/
def myHW_rhoT_R4.B : List (List ℚ) :=
  [[0.4864192, -0.2448372, -0.8702035, 0.8716056, -1.051126, 0.3458395], [0.3509007, 1.315436,
   1.297752, 1.353448, 0.0, 0.0], [-0.2847572, -1.037026, -1.287846, 0.0, 0.0, -0.02148229],
   [0.07013759, 0.4660127, 0.2292075, -0.4857462, 0.0, 0.0], [0.01641220, -0.02884911, 0.0,
   0.1607171, 0.0, -0.009603846], [-0.01163815, -0.008239587, 0.0, 0.0, 0.0, 0.004559914], [0.0,
   0.0, 0.0, -0.003886659, 0.0, 0.0]]

/-- pyXSteam/IAPWS_R4.py:14-67 -/
noncomputable def myHW_rhoT_R4 (F : FP) (rho : Num) (T : Num) : Py Num := do
  logDebug "myHW_rhoT_R4 input: ρ %f kg/m^3, T %f K"
  let T_star := (F.lit 643.847)
  let rho_star := (Num.ofInt 358)
  let my_star := (F.lit 55.2651)
  let T_dash ← F.div T T_star
  let rho_dash ← F.div rho rho_star
  let sum_A_T := (Num.ofInt 0)
  let sum_A_T ← forRange 0 4 sum_A_T fun i sum_A_T => do
    let sum_A_T := F.add sum_A_T (← F.div (F.lit (← idx myHW_rhoT_R4.A i)) (← F.pow T_dash (Num.ofInt (i : ℤ))))
    pure sum_A_T
  let my_0_dash ← F.div (← F.sqrt T_dash) sum_A_T
  let temp_sum := (Num.ofInt 0)
  let temp_sum ← forRange 0 6 temp_sum fun i temp_sum => do
    let part_T ← F.pow (F.sub (← F.div (F.lit 1.0) T_dash) (F.lit 1.0)) (Num.ofInt (i : ℤ))
    let sum_B := (Num.ofInt 0)
    let sum_B ← forRange 0 7 sum_B fun j sum_B => do
      let sum_B := F.add sum_B (F.mul (F.lit (← idx (← idx myHW_rhoT_R4.B j) i)) (← F.pow (F.sub rho_dash (F.lit 1.0)) (Num.ofInt (j : ℤ))))
      pure sum_B
    let temp_sum := F.add temp_sum (F.mul part_T sum_B)
    pure temp_sum
  let my_1_dash ← F.exp (F.mul rho_dash temp_sum)
  let my_dash := (F.mul my_0_dash my_1_dash)
  let my := (F.mul my_dash my_star)
  logDebug "myHW_rhoT_R4 result: my %f"
  pure my

/-- pyXSteam/IAPWS_R4.py:92-92 -/
def tcHW_rhoT_R4.A : List ℚ :=
  [1.0, 37.3223, 22.5485, 13.0465, 0.0, -2.60735]

/-- pyXSteam/IAPWS_R4.py:94-94 -/
def tcHW_rhoT_R4.B : List ℚ :=
  [-167.31, 483.656, -191.039, 73.0358, -7.57467]

/-- pyXSteam/IAPWS_R4.py:70-137 -/
noncomputable def tcHW_rhoT_R4 (F : FP) (rho : Num) (T : Num) : Py Num := do
  logDebug "tcHW_rhoT_R4 input: ρ %f kg/m^3, T %f K"
  let T_star := (F.lit 643.847)
  let rho_star := (Num.ofInt 358)
  let tc_star := (F.lit 0.742128)
  let T_dash ← F.div T T_star
  let rho_dash ← F.div rho rho_star
  let B_e := (Num.neg (F.lit 2.506))
  let C_1 := (F.lit 35429.6)
  let C_2 := (F.lit 5000.0e6)
  let C_T1 := (F.lit 0.144847)
  let C_T2 := (Num.neg (F.lit 5.64493))
  let C_R1 := (Num.neg (F.lit 2.80000))
  let C_R2 := (Num.neg (F.lit 0.080738543))
  let C_R3 := (Num.neg (F.lit 17.9430))
  let rho_r1 := (F.lit 0.125698)
  let D_1 := (Num.neg (F.lit 741.112))
  let tau ← F.div T_dash (F.add (Num.fabs (F.sub T_dash (F.lit 1.1))) (F.lit 1.1))
  let f_1 ← F.exp (F.add (F.mul C_T1 T_dash) (F.mul C_T2 (← F.pow T_dash (Num.ofInt 2))))
  let f_2 := (F.add (← F.exp (F.mul C_R1 (← F.pow (F.sub rho_dash (F.lit 1.0)) (Num.ofInt 2)))) (F.mul C_R2 (← F.exp (F.mul C_R3 (← F.pow (F.sub rho_dash rho_r1) (Num.ofInt 2))))))
  let f_3 := (F.add (Num.ofInt 1) (← F.exp (F.add (F.mul (F.lit 60.0) (F.sub tau (F.lit 1.0))) (F.lit 20.0))))
  let f_4 := (F.add (Num.ofInt 1) (← F.exp (F.add (F.mul (F.lit 100.0) (F.sub tau (F.lit 1.0))) (F.lit 15.0))))
  let part_C2 ← F.div (F.mul C_2 (← F.pow f_1 (Num.ofInt 4))) f_3
  let part_f2 ← F.div (F.mul (F.lit 3.5) f_2) f_4
  let temp_sum := (Num.ofInt 0)
  let temp_sum ← forRange 0 6 temp_sum fun i temp_sum => do
    let temp_sum := F.add temp_sum (F.mul (F.lit (← idx tcHW_rhoT_R4.A i)) (← F.pow T_dash (Num.ofInt (i : ℤ))))
    pure temp_sum
  let tc_o := temp_sum
  let temp_sum := (Num.ofInt 0)
  let temp_sum ← forRange 1 5 temp_sum fun i temp_sum => do
    let temp_sum := F.add temp_sum (F.mul (F.lit (← idx tcHW_rhoT_R4.B i)) (← F.pow rho_dash (Num.ofInt (i : ℤ))))
    pure temp_sum
  let delta_tc := (F.add (F.mul (F.lit (← idx tcHW_rhoT_R4.B 0)) (F.sub (F.lit 1.0) (← F.exp (F.mul B_e rho_dash)))) temp_sum)
  let delta_tc_c := (F.mul (F.mul (F.mul C_1 f_1) f_2) (F.add (F.lit 1.0) (F.mul (← F.pow f_2 (Num.ofInt 2)) (F.add part_C2 part_f2))))
  let delta_tc_L := (F.mul (F.mul D_1 (← F.pow f_1 (F.lit 1.2))) (F.sub (F.lit 1.0) (← F.exp (F.mul (Num.neg (F.lit 1.0)) (← F.pow (← F.div rho_dash (F.lit 2.5)) (Num.ofInt 10))))))
  let tc_dash := (F.add (F.add (F.add tc_o delta_tc) delta_tc_c) delta_tc_L)
  let tc := (F.mul tc_dash tc_star)
  logDebug "tcHW_rhoT_R4 result: λ %f"
  pure tc

end IAPWS_R4

end PyX
