import Mathlib.Data.Int.Notation

/-!
# The table of Doodson coefficients

The contents of /repo/pyTMD/data/doodson.json (483 constituents, in the order of the file):
multiples of tau, s, h, p, n, pp and of 90 degrees.  The file stores them as floating point
numbers, all of which are integers.
-/

namespace Verif.Coef

/-- /repo/pyTMD/data/doodson.json, constituents 1 to 100. -/
def table0 : List (String × List ℤ) := [
  ("z0", [0, 0, 0, 0, 0, 0, 0]),
  ("node", [0, 0, 0, 0, 1, 0, 2]),
  ("omega0", [0, 0, 0, 0, 1, 0, 2]),
  ("sa", [0, 0, 1, 0, 0, -1, 0]),
  ("ssa", [0, 0, 2, 0, 0, 0, 0]),
  ("sta", [0, 0, 3, 0, 0, -1, 0]),
  ("st", [0, 0, 3, 0, 0, 0, 0]),
  ("msm", [0, 1, -2, 1, 0, 0, 0]),
  ("mm", [0, 1, 0, -1, 0, 0, 0]),
  ("msfa", [0, 2, -3, 0, 0, 0, 0]),
  ("msf", [0, 2, -2, 0, 0, 0, 0]),
  ("msfb", [0, 2, -1, 0, 0, 0, 0]),
  ("mfa", [0, 2, -1, 0, 0, 0, 0]),
  ("mf-", [0, 2, 0, 0, -1, 0, 0]),
  ("mf", [0, 2, 0, 0, 0, 0, 0]),
  ("mf+", [0, 2, 0, 0, 1, 0, 0]),
  ("mfn", [0, 2, 0, 0, 1, 0, 0]),
  ("mfb", [0, 2, 1, 0, 0, 0, 0]),
  ("sn0", [0, 3, -2, -1, 0, 0, 0]),
  ("mst", [0, 3, -2, 1, 0, 0, 0]),
  ("mt", [0, 3, 0, -1, 0, 0, 0]),
  ("mtm", [0, 3, 0, -1, 0, 0, 0]),
  ("msqm", [0, 4, -2, 0, 0, 0, 0]),
  ("mq", [0, 4, 0, -2, 0, 0, 0]),
  ("2smn0", [0, 5, -4, -1, 0, 0, 0]),
  ("msp", [0, 5, -2, -1, 0, 0, 0]),
  ("mp", [0, 5, 0, -3, 0, 0, 0]),
  ("2qj1", [1, -6, 0, 3, 0, 0, 1]),
  ("2qk1", [1, -5, 0, 2, 0, 0, 1]),
  ("2qs1", [1, -5, 1, 2, 0, 0, 0]),
  ("2qp1", [1, -5, 2, 2, 0, 0, -1]),
  ("2oj1", [1, -4, 0, 1, 0, 0, 1]),
  ("alpha1", [1, -4, 2, 1, 0, 0, -1]),
  ("2ok1", [1, -3, 0, 0, 0, 0, 1]),
  ("2q1'", [1, -3, 0, 1, 0, 0, 2]),
  ("2q1", [1, -3, 0, 2, 0, 0, -1]),
  ("sigma1", [1, -3, 2, 0, 0, 0, -1]),
  ("q1'", [1, -2, 0, 0, 0, 0, 2]),
  ("q1", [1, -2, 0, 1, 0, 0, -1]),
  ("rho1", [1, -2, 2, -1, 0, 0, -1]),
  ("np1", [1, -2, 2, 1, 0, 0, 1]),
  ("opk1", [1, -1, -2, 0, 0, 0, 1]),
  ("oa1", [1, -1, -1, 0, 0, 0, -1]),
  ("o1n", [1, -1, 0, 0, -1, 0, -1]),
  ("o1-", [1, -1, 0, 0, -1, 0, -1]),
  ("o1", [1, -1, 0, 0, 0, 0, -1]),
  ("o1+", [1, -1, 0, 0, 1, 0, -1]),
  ("o1'", [1, -1, 0, 1, 0, 0, 2]),
  ("ob1", [1, -1, 1, 0, 0, 0, -1]),
  ("ms1", [1, -1, 1, 0, 0, 0, 2]),
  ("mp1", [1, -1, 2, 0, 0, 0, 1]),
  ("tau1", [1, -1, 2, 0, 0, 0, 1]),
  ("beta1", [1, 0, -2, 1, 0, 0, 1]),
  ("pqo1", [1, 0, -2, 1, 0, 0, -1]),
  ("2oq1", [1, 0, 0, -1, 0, 0, -1]),
  ("m1'", [1, 0, 0, 0, 0, 0, 2]),
  ("m1", [1, 0, 0, 0, 0, 0, 1]),
  ("m1a", [1, 0, 0, 1, 0, 0, 1]),
  ("m1b", [1, 0, 0, -1, 0, 0, 1]),
  ("no1", [1, 0, 0, 1, 0, 0, 1]),
  ("chi1", [1, 0, 2, -1, 0, 0, 1]),
  ("2pk1", [1, 1, -4, 0, 0, 0, 1]),
  ("pi1", [1, 1, -3, 0, 0, 1, -1]),
  ("tk1", [1, 1, -3, 0, 0, 1, -1]),
  ("s1-1", [1, 1, -2, 0, 0, 0, 2]),
  ("p1", [1, 1, -2, 0, 0, 0, -1]),
  ("s1-", [1, 1, -1, 0, 0, -1, 1]),
  ("s1", [1, 1, -1, 0, 0, 0, 2]),
  ("s1+", [1, 1, -1, 0, 0, 1, 1]),
  ("ojm1", [1, 1, 0, -2, 0, 0, -1]),
  ("k1'", [1, 1, 0, -1, 0, 0, 2]),
  ("k1-", [1, 1, 0, 0, -1, 0, -1]),
  ("k1", [1, 1, 0, 0, 0, 0, 1]),
  ("s1+1", [1, 1, 0, 0, 0, 0, 2]),
  ("k1+", [1, 1, 0, 0, 1, 0, 1]),
  ("k1n", [1, 1, 0, 0, 1, 0, 1]),
  ("k1++", [1, 1, 0, 0, 2, 0, -1]),
  ("psi1", [1, 1, 1, 0, 0, -1, 1]),
  ("rp1", [1, 1, 1, 0, 0, -1, -1]),
  ("phi1", [1, 1, 2, 0, 0, 0, 1]),
  ("kp1", [1, 1, 2, 0, 0, 0, 1]),
  ("opq1", [1, 2, -2, -1, 0, 0, -1]),
  ("the1", [1, 2, -2, 1, 0, 0, 1]),
  ("theta1", [1, 2, -2, 1, 0, 0, 1]),
  ("mq1", [1, 2, 0, -1, 0, 0, 1]),
  ("j1", [1, 2, 0, -1, 0, 0, 1]),
  ("j1'", [1, 2, 0, 0, 0, 0, 2]),
  ("2po1", [1, 3, -4, 0, 0, 0, -1]),
  ("so1", [1, 3, -2, 0, 0, 0, 1]),
  ("oo1", [1, 3, 0, 0, 0, 0, 1]),
  ("kpq1", [1, 4, -2, -1, 0, 0, 1]),
  ("ups1", [1, 4, 0, -1, 0, 0, 1]),
  ("kq1", [1, 4, 0, -1, 0, 0, 1]),
  ("2jo1", [1, 5, 0, -2, 0, 0, -1]),
  ("kjq1", [1, 5, 0, -2, 0, 0, -1]),
  ("2ook1", [1, 5, 0, 0, 0, 0, -1]),
  ("2oop1", [1, 5, 2, 0, 0, 0, -1]),
  ("2jq1", [1, 6, 0, -3, 0, 0, -1]),
  ("2mn2s2", [2, -5, 4, 1, 0, 0, 0]),
  ("2nk2", [2, -4, 0, 2, 0, 0, 0])]

/-- /repo/pyTMD/data/doodson.json, constituents 101 to 200. -/
def table1 : List (String × List ℤ) := [
  ("3m(sk)2", [2, -4, 2, 0, 0, 0, 0]),
  ("3mks2", [2, -4, 2, 0, 0, 0, 0]),
  ("2ns2", [2, -4, 2, 2, 0, 0, 0]),
  ("3m2s2", [2, -4, 4, 0, 0, 0, 0]),
  ("oq2", [2, -3, 0, 1, 0, 0, 2]),
  ("mnk2", [2, -3, 0, 1, 0, 0, 0]),
  ("3n2", [2, -3, 0, 3, 0, 0, 0]),
  ("eps2", [2, -3, 2, 1, 0, 0, 0]),
  ("mns2", [2, -3, 2, 1, 0, 0, 0]),
  ("mnus2", [2, -3, 4, -1, 0, 0, 0]),
  ("2ml2s2", [2, -3, 4, -1, 0, 0, 2]),
  ("mnk2s2", [2, -3, 4, 1, 0, 0, 0]),
  ("2ms2k2", [2, -2, -2, 0, 0, 0, 0]),
  ("2mk2", [2, -2, 0, 0, 0, 0, 0]),
  ("o2", [2, -2, 0, 0, 0, 0, 2]),
  ("2n2'", [2, -2, 0, 1, 0, 0, 1]),
  ("2n2", [2, -2, 0, 2, 0, 0, 0]),
  ("2nm2", [2, -2, 0, 2, 0, 0, 0]),
  ("2ms2", [2, -2, 2, 0, 0, 0, 0]),
  ("mu2", [2, -2, 2, 0, 0, 0, 0]),
  ("2mk2s2", [2, -2, 4, 0, 0, 0, 0]),
  ("omg2", [2, -2, 3, 0, 0, -1, 0]),
  ("nsk2", [2, -1, -2, 1, 0, 0, 0]),
  ("snk2", [2, -1, -2, 1, 0, 0, 0]),
  ("na2", [2, -1, -1, 1, 0, 0, 0]),
  ("n2'", [2, -1, 0, 0, 0, 0, 1]),
  ("n2", [2, -1, 0, 1, 0, 0, 0]),
  ("2ml2", [2, -1, 0, 1, 0, 0, 2]),
  ("nb2", [2, -1, 1, 1, 0, 0, 0]),
  ("nu2", [2, -1, 2, -1, 0, 0, 0]),
  ("mmun2", [2, -1, 2, -1, 0, 0, 0]),
  ("3m(sn)2", [2, -1, 2, -1, 0, 0, 0]),
  ("nks2", [2, -1, 2, 1, 0, 0, 0]),
  ("nkp2", [2, -1, 2, 1, 0, 0, 2]),
  ("mkl2s2", [2, -1, 4, -1, 0, 0, 2]),
  ("2kn2s2", [2, -1, 4, 1, 0, 0, 0]),
  ("msk2", [2, 0, -2, 0, 0, 0, 0]),
  ("op2", [2, 0, -2, 0, 0, 0, 2]),
  ("m2-2", [2, 0, -2, 0, 0, 0, 0]),
  ("gamma2", [2, 0, -2, 2, 0, 0, 2]),
  ("gam2", [2, 0, -2, 2, 0, 0, 2]),
  ("alp2", [2, 0, -1, 0, 0, 1, 2]),
  ("alpha2", [2, 0, -1, 0, 0, 1, 2]),
  ("m2a", [2, 0, -1, 0, 0, 1, 0]),
  ("m2-1", [2, 0, -1, 0, 0, 0, 0]),
  ("ma2", [2, 0, -1, 0, 0, 0, 0]),
  ("m2-", [2, 0, 0, 0, -1, 0, 2]),
  ("m2", [2, 0, 0, 0, 0, 0, 0]),
  ("ko2", [2, 0, 0, 0, 0, 0, 0]),
  ("m2+", [2, 0, 0, 0, 1, 0, 2]),
  ("m2'", [2, 0, 0, 1, 0, 0, -1]),
  ("mb2", [2, 0, 1, 0, 0, 0, 0]),
  ("m2+1", [2, 0, 1, 0, 0, 0, 0]),
  ("m2b", [2, 0, 1, 0, 0, -1, 0]),
  ("beta2", [2, 0, 1, 0, 0, -1, 0]),
  ("delta2", [2, 0, 2, 0, 0, 0, 0]),
  ("m2+2", [2, 0, 2, 0, 0, 0, 0]),
  ("mks2", [2, 0, 2, 0, 0, 0, 0]),
  ("m2(ks)2", [2, 0, 4, 0, 0, 0, 0]),
  ("2snmk2", [2, 1, -4, 1, 0, 0, 0]),
  ("2sn(mk)2", [2, 1, -4, 1, 0, 0, 0]),
  ("snm2", [2, 1, -2, 1, 0, 0, 0]),
  ("lambda2", [2, 1, -2, 1, 0, 0, 2]),
  ("2mn2", [2, 1, 0, -1, 0, 0, 0]),
  ("l2", [2, 1, 0, -1, 0, 0, 2]),
  ("l2a", [2, 1, 0, -1, 0, 0, 2]),
  ("l2'", [2, 1, 0, 0, 0, 0, -1]),
  ("nkm2", [2, 1, 0, 1, 0, 0, 0]),
  ("l2b", [2, 1, 0, 1, 0, 0, 0]),
  ("lb2", [2, 1, 1, -1, 0, 0, 2]),
  ("2sk2", [2, 2, -4, 0, 0, 0, 0]),
  ("2t2", [2, 2, -4, 0, 0, 2, 0]),
  ("s2-2", [2, 2, -4, 0, 0, 0, 0]),
  ("s2-1", [2, 2, -3, 0, 0, 0, 0]),
  ("t2", [2, 2, -3, 0, 0, 1, 0]),
  ("kp2", [2, 2, -2, 0, 0, 0, 0]),
  ("s2r", [2, 2, -2, 0, 0, 0, 0]),
  ("s2", [2, 2, -2, 0, 0, 0, 0]),
  ("r2", [2, 2, -1, 0, 0, -1, 2]),
  ("s2+1", [2, 2, -1, 0, 0, 0, 0]),
  ("s2+2", [2, 2, 0, 0, 0, 0, 0]),
  ("k2", [2, 2, 0, 0, 0, 0, 0]),
  ("kb2", [2, 2, 1, 0, 0, 0, 0]),
  ("2ks2", [2, 2, 2, 0, 0, 0, 0]),
  ("2pmn2", [2, 3, -4, -1, 0, 0, 2]),
  ("msnu2", [2, 3, -4, 1, 0, 0, 0]),
  ("msn2", [2, 3, -2, -1, 0, 0, 0]),
  ("zeta2", [2, 3, -2, 1, 0, 0, 0]),
  ("eta2", [2, 3, 0, -1, 0, 0, 0]),
  ("mkn2", [2, 3, 0, -1, 0, 0, 0]),
  ("kj2", [2, 3, 0, -1, 0, 0, 2]),
  ("2kmsn2", [2, 3, 2, -1, 0, 0, 0]),
  ("2km(sn)2", [2, 3, 2, -1, 0, 0, 0]),
  ("2sm2", [2, 4, -4, 0, 0, 0, 0]),
  ("2ms2n2", [2, 4, -2, -2, 0, 0, 0]),
  ("skm2", [2, 4, -2, 0, 0, 0, 0]),
  ("2j2", [2, 4, 0, -2, 0, 0, 2]),
  ("2k2", [2, 4, 0, 0, 0, 0, 0]),
  ("2snu2", [2, 5, -6, 1, 0, 0, 0]),
  ("3(sm)n2", [2, 5, -6, 1, 0, 0, 0])]

/-- /repo/pyTMD/data/doodson.json, constituents 201 to 300. -/
def table2 : List (String × List ℤ) := [
  ("2sn2", [2, 5, -4, -1, 0, 0, 0]),
  ("skn2", [2, 5, -2, -1, 0, 0, 0]),
  ("2kn2", [2, 5, 0, -1, 0, 0, 0]),
  ("3s2m2", [2, 6, -6, 0, 0, 0, 0]),
  ("2sk2m2", [2, 6, -4, 0, 0, 0, 0]),
  ("2oq3", [3, -4, 0, 1, 0, 0, 1]),
  ("o3", [3, -3, 0, 0, 0, 0, 1]),
  ("nq3", [3, -3, 0, 2, 0, 0, -1]),
  ("muo3", [3, -3, 2, 0, 0, 0, -1]),
  ("mq3", [3, -2, 0, 1, 0, 0, -1]),
  ("no3", [3, -2, 0, 1, 0, 0, -1]),
  ("mnp3", [3, -2, 2, 1, 0, 0, 1]),
  ("2op3", [3, -1, -2, 0, 0, 0, 1]),
  ("2os3", [3, -1, -1, 0, 0, 0, 0]),
  ("qms3", [3, -1, -1, 2, 0, 0, 2]),
  ("mo3-", [3, -1, 0, 0, -1, 0, -1]),
  ("mo3", [3, -1, 0, 0, 0, 0, -1]),
  ("mo3+", [3, -1, 0, 0, 1, 0, -1]),
  ("2mk3", [3, -1, 0, 0, 0, 0, -1]),
  ("e3n", [3, -1, 0, 1, -1, 0, 0]),
  ("e3", [3, -1, 0, 1, 0, 0, 2]),
  ("2no3", [3, -1, 0, 2, 0, 0, 1]),
  ("2nkm3", [3, -1, 0, 2, 0, 0, 1]),
  ("2ms3", [3, -1, 1, 0, 0, 0, 2]),
  ("2mp3", [3, -1, 2, 0, 0, 0, 1]),
  ("ns3", [3, 0, -1, 1, 0, 0, 2]),
  ("2oj3", [3, 0, 0, -1, 0, 0, -1]),
  ("2mm3", [3, 0, 0, -1, 0, 0, -1]),
  ("m3", [3, 0, 0, 0, 0, 0, 0]),
  ("m3'", [3, 0, 0, 0, 0, 0, 2]),
  ("nk3", [3, 0, 0, 1, 0, 0, 0]),
  ("mp3", [3, 1, -2, 0, 0, 0, -1]),
  ("so3", [3, 1, -2, 0, 0, 0, -1]),
  ("lambda3", [3, 1, -2, 1, 0, 0, 0]),
  ("ms3", [3, 1, -1, 0, 0, 0, 2]),
  ("pjrho3", [3, 1, 0, -2, 0, 0, -1]),
  ("l3", [3, 1, 0, -1, 0, 0, 0]),
  ("mk3-", [3, 1, 0, 0, -1, 0, 1]),
  ("mk3", [3, 1, 0, 0, 0, 0, 1]),
  ("mk3+", [3, 1, 0, 0, 1, 0, 1]),
  ("l3b", [3, 1, 0, 1, 0, 0, 2]),
  ("mks3", [3, 1, 1, 0, 0, 0, 2]),
  ("mkp3", [3, 1, 2, 0, 0, 0, 1]),
  ("nso3", [3, 2, -2, 1, 0, 0, 1]),
  ("2mq3", [3, 2, 0, -1, 0, 0, 1]),
  ("f3", [3, 2, 0, 0, 0, 0, 2]),
  ("j3", [3, 2, 0, 0, 0, 0, 2]),
  ("2t3", [3, 3, -5, 0, 0, 0, 2]),
  ("t3", [3, 3, -4, 0, 0, 0, 2]),
  ("sp3", [3, 3, -4, 0, 0, 0, -1]),
  ("s3", [3, 3, -3, 0, 0, 0, 0]),
  ("s3'", [3, 3, -3, 0, 0, 0, 2]),
  ("r3", [3, 3, -2, 0, 0, 0, 2]),
  ("sk3", [3, 3, -2, 0, 0, 0, 1]),
  ("2r3", [3, 3, -1, 0, 0, 0, 2]),
  ("k3", [3, 3, 0, 0, 0, 0, -1]),
  ("2so3", [3, 5, -4, 0, 0, 0, 1]),
  ("2jp3", [3, 5, -2, -2, 0, 0, 1]),
  ("kso3", [3, 5, -2, 0, 0, 0, 1]),
  ("2jk3", [3, 5, -1, -2, 0, 0, 0]),
  ("2ko3", [3, 5, 0, 0, 0, 0, 1]),
  ("2sq3", [3, 6, -4, -1, 0, 0, 1]),
  ("o4", [4, -4, 0, 0, 0, 0, 0]),
  ("2qm4", [4, -4, 0, 2, 0, 0, 2]),
  ("4ms4", [4, -4, 4, 0, 0, 0, 0]),
  ("4m2s4", [4, -4, 4, 0, 0, 0, 0]),
  ("2mnk4", [4, -3, 0, 1, 0, 0, 0]),
  ("moq4", [4, -3, 0, 1, 0, 0, 2]),
  ("2mns4", [4, -3, 4, -1, 0, 0, 0]),
  ("2mnus4", [4, -3, 4, -1, 0, 0, 0]),
  ("3mk4", [4, -2, 0, 0, 0, 0, 0]),
  ("2om4", [4, -2, 0, 0, 0, 0, 2]),
  ("n4", [4, -2, 0, 2, 0, 0, 0]),
  ("3ms4", [4, -2, 2, 0, 0, 0, 0]),
  ("msnk4", [4, -1, -2, 1, 0, 0, 0]),
  ("mpq4", [4, -1, -2, 1, 0, 0, 2]),
  ("mn4", [4, -1, 0, 1, 0, 0, 0]),
  ("mnu4", [4, -1, 2, -1, 0, 0, 0]),
  ("2mls4", [4, -1, 2, -1, 0, 0, 2]),
  ("mnks4", [4, -1, 2, 1, 0, 0, 0]),
  ("2msk4", [4, 0, -2, 0, 0, 0, 0]),
  ("mop4", [4, 0, -2, 0, 0, 0, 2]),
  ("ma4", [4, 0, -1, 0, 0, 0, 0]),
  ("m4", [4, 0, 0, 0, 0, 0, 0]),
  ("mb4", [4, 0, 1, 0, 0, 0, 0]),
  ("2mks4", [4, 0, 2, 0, 0, 0, 0]),
  ("sn4", [4, 1, -2, 1, 0, 0, 0]),
  ("3mn4", [4, 1, 0, -1, 0, 0, 0]),
  ("ml4", [4, 1, 0, -1, 0, 0, 2]),
  ("nk4", [4, 1, 0, 1, 0, 0, 0]),
  ("2smk4", [4, 2, -4, 0, 0, 0, 0]),
  ("2pm4", [4, 2, -4, 0, 0, 0, 2]),
  ("mt4", [4, 2, -3, 0, 0, 1, 0]),
  ("ms4", [4, 2, -2, 0, 0, 0, 0]),
  ("mr4", [4, 2, -1, 0, 0, -1, 2]),
  ("mk4", [4, 2, 0, 0, 0, 0, 0]),
  ("2snm4", [4, 3, -4, 1, 0, 0, 0]),
  ("2msn4", [4, 3, -2, -1, 0, 0, 0]),
  ("sl4", [4, 3, -2, -1, 0, 0, 2]),
  ("2mkn4", [4, 3, 0, -1, 0, 0, 0])]

/-- /repo/pyTMD/data/doodson.json, constituents 301 to 400. -/
def table3 : List (String × List ℤ) := [
  ("mkj4", [4, 3, 0, -1, 0, 0, 2]),
  ("2t4", [4, 4, -6, 0, 0, 0, 0]),
  ("t4", [4, 4, -5, 0, 0, 0, 0]),
  ("st4", [4, 4, -5, 0, 0, 1, 0]),
  ("s4", [4, 4, -4, 0, 0, 0, 0]),
  ("r4", [4, 4, -3, 0, 0, 0, 0]),
  ("2r4", [4, 4, -2, 0, 0, 0, 0]),
  ("sk4", [4, 4, -2, 0, 0, 0, 0]),
  ("3ks4", [4, 4, -1, 0, 0, 0, -1]),
  ("k4", [4, 4, 0, 0, 0, 0, 0]),
  ("3sm4", [4, 6, -6, 0, 0, 0, 0]),
  ("2(kj)4", [4, 6, 0, -2, 0, 0, 2]),
  ("2no5", [5, -3, 0, 2, 0, 0, -1]),
  ("mno5", [5, -2, 0, 1, 0, 0, -1]),
  ("2mq5", [5, -2, 0, 1, 0, 0, -1]),
  ("2nkms5", [5, -2, 2, 2, 0, 0, 1]),
  ("2mo5", [5, -1, 0, 0, 0, 0, -1]),
  ("mnm5", [5, -1, 0, 1, 0, 0, 2]),
  ("2nk5", [5, -1, 0, 2, 0, 0, 1]),
  ("3ms5", [5, -1, 1, 0, 0, 0, 2]),
  ("3mp5", [5, -1, 2, 0, 0, 0, 1]),
  ("nso5", [5, 0, -2, 1, 0, 0, -1]),
  ("m5", [5, 0, 0, 0, 0, 0, 2]),
  ("mnk5", [5, 0, 0, 1, 0, 0, 1]),
  ("mb5", [5, 0, 1, 0, 0, 0, 1]),
  ("mso5", [5, 1, -2, 0, 0, 0, -1]),
  ("2mp5", [5, 1, -2, 0, 0, 0, -1]),
  ("2ms5", [5, 1, -1, 0, 0, 0, 2]),
  ("2mk5", [5, 1, 0, 0, 0, 0, 1]),
  ("nks5", [5, 2, -1, 1, 0, 0, 2]),
  ("nsk5", [5, 2, -2, -1, 0, 0, 1]),
  ("msm5", [5, 2, -2, 0, 0, 0, 2]),
  ("snk5", [5, 2, -2, 1, 0, 0, -1]),
  ("3mq5", [5, 2, 0, -1, 0, 0, 1]),
  ("msp5", [5, 3, -4, 0, 0, 0, -1]),
  ("msk5", [5, 3, -2, 0, 0, 0, 1]),
  ("3km5", [5, 3, 0, 0, 0, 0, -1]),
  ("2sp5", [5, 5, -6, 0, 0, 0, -1]),
  ("t5", [5, 5, -6, 0, 0, 0, 0]),
  ("s5", [5, 5, -5, 0, 0, 0, 0]),
  ("r5", [5, 5, -4, 0, 0, 0, 0]),
  ("2sk5", [5, 5, -4, 0, 0, 0, 1]),
  ("k5", [5, 5, 0, 0, 0, 0, 1]),
  ("o6", [6, -6, 0, 0, 0, 0, 2]),
  ("2(mn)k6", [6, -4, 0, 2, 0, 0, 0]),
  ("5mks6", [6, -4, 2, 0, 0, 0, 0]),
  ("2(mn)s6", [6, -4, 2, 2, 0, 0, 0]),
  ("5m2s6", [6, -4, 4, 0, 0, 0, 0]),
  ("3mnk6", [6, -3, 0, 1, 0, 0, 0]),
  ("n6", [6, -3, 0, 3, 0, 0, 0]),
  ("3mns6", [6, -3, 2, 1, 0, 0, 0]),
  ("2nmls6", [6, -3, 2, 1, 0, 0, 2]),
  ("3nks6", [6, -3, 2, 3, 0, 0, 0]),
  ("3mnus6", [6, -3, 4, -1, 0, 0, 0]),
  ("4mk6", [6, -2, 0, 0, 0, 0, 0]),
  ("2nm6", [6, -2, 0, 2, 0, 0, 0]),
  ("m2n6", [6, -2, 0, 2, 0, 0, 0]),
  ("4ms6", [6, -2, 2, 0, 0, 0, 0]),
  ("2mlns6", [6, -2, 2, 0, 0, 0, 2]),
  ("2mnls6", [6, -2, 2, 0, 0, 0, 2]),
  ("2nmks6", [6, -2, 2, 2, 0, 0, 0]),
  ("2msnk6", [6, -1, -2, 1, 0, 0, 0]),
  ("2mn6", [6, -1, 2, -1, 0, 0, 0]),
  ("2mnu6", [6, -1, 2, -1, 0, 0, 0]),
  ("3mls6", [6, -1, 2, -1, 0, 0, 2]),
  ("2mno6", [6, -1, 2, -1, 0, 0, 0]),
  ("2mnks6", [6, -1, 2, 1, 0, 0, 0]),
  ("3msk6", [6, 0, -2, 0, 0, 0, 0]),
  ("ma6", [6, 0, -1, 0, 0, 0, 0]),
  ("m6", [6, 0, 0, 0, 0, 0, 0]),
  ("2nk6", [6, 0, 0, 2, 0, 0, 0]),
  ("mb6", [6, 0, 1, 0, 0, 0, 0]),
  ("3mks6", [6, 0, 2, 0, 0, 0, 0]),
  ("msn6", [6, 1, -2, 1, 0, 0, 0]),
  ("4mn6", [6, 1, 0, -1, 0, 0, 0]),
  ("2ml6", [6, 1, 0, -1, 0, 0, 2]),
  ("mnk6", [6, 1, 0, 1, 0, 0, 0]),
  ("mkn6", [6, 1, 0, 1, 0, 0, 0]),
  ("mknu6", [6, 1, 2, -1, 0, 0, 0]),
  ("2(ms)k6", [6, 2, -4, 0, 0, 0, 0]),
  ("2mt6", [6, 2, -3, 0, 0, 1, 0]),
  ("2ms6", [6, 2, -2, 0, 0, 0, 0]),
  ("2mr6", [6, 2, -1, 0, 0, -1, 2]),
  ("2mk6", [6, 2, 0, 0, 0, 0, 0]),
  ("2sn6", [6, 3, -4, 1, 0, 0, 0]),
  ("3msn6", [6, 3, -2, -1, 0, 0, 0]),
  ("msl6", [6, 3, -2, -1, 0, 0, 2]),
  ("snk6", [6, 3, -2, 1, 0, 0, 0]),
  ("mkl6", [6, 3, 0, -1, 0, 0, 2]),
  ("3mkn6", [6, 3, 0, -1, 0, 0, 0]),
  ("2sm6", [6, 4, -4, 0, 0, 0, 0]),
  ("msk6", [6, 4, -2, 0, 0, 0, 0]),
  ("2km6", [6, 4, 0, 0, 0, 0, 0]),
  ("2(ms)n6", [6, 5, -4, -1, 0, 0, 0]),
  ("2mskn6", [6, 5, -2, -1, 0, 0, 0]),
  ("2t6", [6, 6, -8, 0, 0, 0, 0]),
  ("t6", [6, 6, -7, 0, 0, 0, 0]),
  ("s6", [6, 6, -6, 0, 0, 0, 0]),
  ("r6", [6, 6, -5, 0, 0, 0, 0]),
  ("2r6", [6, 6, -4, 0, 0, 0, 0])]

/-- /repo/pyTMD/data/doodson.json, constituents 401 to 483. -/
def table4 : List (String × List ℤ) := [
  ("2sk6", [6, 6, -4, 0, 0, 0, 0]),
  ("k6", [6, 6, 0, 0, 0, 0, 0]),
  ("4sm6", [6, 8, -8, 0, 0, 0, 0]),
  ("2mno7", [7, -2, 0, 1, 0, 0, -1]),
  ("4mk7", [7, -1, 0, 0, 0, 0, -1]),
  ("3mo7", [7, -1, 0, 0, 0, 0, -1]),
  ("2nmk7", [7, -1, 0, 2, 0, 0, 1]),
  ("m7", [7, 0, 0, 1, 0, 0, 1]),
  ("3mp7", [7, 1, -2, 0, 0, 0, -1]),
  ("2mso7", [7, 1, -2, 0, 0, 0, -1]),
  ("3mk7", [7, 1, 0, 0, 0, 0, 1]),
  ("2msk7", [7, 3, -2, 0, 0, 0, 1]),
  ("msko7", [7, 3, -2, 0, 0, 0, -1]),
  ("2t7", [7, 7, -9, 0, 0, 0, 0]),
  ("3sp7", [7, 7, -8, 0, 0, 0, -1]),
  ("t7", [7, 7, -8, 0, 0, 0, 0]),
  ("s7", [7, 7, -7, 0, 0, 0, 0]),
  ("r7", [7, 7, -6, 0, 0, 0, 0]),
  ("3sk7", [7, 7, -6, 0, 0, 0, 1]),
  ("2r7", [7, 7, -5, 0, 0, 0, 0]),
  ("3r7", [7, 7, -4, 0, 0, 0, 0]),
  ("4r7", [7, 7, -3, 0, 0, 0, 0]),
  ("k7", [7, 7, 0, 0, 0, 0, 1]),
  ("3m2ns8", [8, -4, 2, 2, 0, 0, 0]),
  ("4mns8", [8, -3, 2, 1, 0, 0, 0]),
  ("5mk8", [8, -2, 0, 0, 0, 0, 0]),
  ("2mn8", [8, -2, 0, 2, 0, 0, 0]),
  ("2(mn)8", [8, -2, 0, 2, 0, 0, 0]),
  ("5ms8", [8, -2, 2, 0, 0, 0, 0]),
  ("3mn8", [8, -1, 2, -1, 0, 0, 0]),
  ("3mnu8", [8, -1, 2, -1, 0, 0, 0]),
  ("4mls8", [8, -1, 2, -1, 0, 0, 2]),
  ("ma8", [8, 0, -1, 0, 0, 0, 0]),
  ("m8", [8, 0, 0, 0, 0, 0, 0]),
  ("mb8", [8, 0, 1, 0, 0, 0, 0]),
  ("2msn8", [8, 1, -2, 1, 0, 0, 0]),
  ("3ml8", [8, 1, 0, -1, 0, 0, 2]),
  ("2mnk8", [8, 1, 0, 1, 0, 0, 0]),
  ("3mt8", [8, 2, -3, 0, 0, 1, 0]),
  ("3ms8", [8, 2, -2, 0, 0, 0, 0]),
  ("3mk8", [8, 2, 0, 0, 0, 0, 0]),
  ("2smn8", [8, 3, -4, 1, 0, 0, 0]),
  ("2msl8", [8, 3, -2, -1, 0, 0, 2]),
  ("msnk8", [8, 3, -2, 1, 0, 0, 0]),
  ("4msn8", [8, 3, 0, -1, 0, 0, 0]),
  ("2(ms)8", [8, 4, -4, 0, 0, 0, 0]),
  ("2msk8", [8, 4, -2, 0, 0, 0, 0]),
  ("2(mk)8", [8, 4, 0, 0, 0, 0, 0]),
  ("s8", [8, 8, -8, 0, 0, 0, 0]),
  ("k8", [8, 8, 0, 0, 0, 0, 0]),
  ("4mo9", [9, -1, 0, 0, 0, 0, -1]),
  ("2(mn)k9", [9, -1, 0, 2, 0, 0, 1]),
  ("2m2nk9", [9, -1, 0, 2, 0, 0, 1]),
  ("3mnk9", [9, 0, 0, 1, 0, 0, 1]),
  ("4mp9", [9, 1, -2, 0, 0, 0, -1]),
  ("4ms9", [9, 1, -1, 0, 0, 0, 2]),
  ("4mk9", [9, 1, 0, 0, 0, 0, 1]),
  ("3msk9", [9, 3, -2, 0, 0, 0, 1]),
  ("s9", [9, 9, -9, 0, 0, 0, 0]),
  ("k9", [9, 9, 0, 0, 0, 0, 1]),
  ("4mn10", [10, -1, 0, 1, 0, 0, 0]),
  ("m10", [10, 0, 0, 0, 0, 0, 0]),
  ("3msn10", [10, 1, -2, 1, 0, 0, 0]),
  ("4ms10", [10, 2, -2, 0, 0, 0, 0]),
  ("4mk10", [10, 2, 0, 0, 0, 0, 0]),
  ("3msl10", [10, 3, -2, -1, 0, 0, 2]),
  ("3m2s10", [10, 4, -4, 0, 0, 0, 0]),
  ("3msk10", [10, 4, -2, 0, 0, 0, 0]),
  ("s10", [10, 10, -10, 0, 0, 0, 0]),
  ("4msk11", [11, 3, -2, 0, 0, 0, 1]),
  ("s11", [11, 11, -11, 0, 0, 0, 0]),
  ("5mn12", [12, -1, 0, 1, 0, 0, 0]),
  ("m12", [12, 0, 0, 0, 0, 0, 0]),
  ("4msn12", [12, 1, -2, 1, 0, 0, 0]),
  ("4mns12", [12, 1, -2, 1, 0, 0, 0]),
  ("5ms12", [12, 2, -2, 0, 0, 0, 0]),
  ("4msl12", [12, 3, -2, -1, 0, 0, 2]),
  ("4m2s12", [12, 4, -4, 0, 0, 0, 0]),
  ("s12", [12, 12, -12, 0, 0, 0, 0]),
  ("m14", [14, 0, 0, 0, 0, 0, 0]),
  ("5msn14", [14, 1, -2, 1, 0, 0, 0]),
  ("6ms14", [14, 2, -2, 0, 0, 0, 0]),
  ("5m2s14", [14, 4, -4, 0, 0, 0, 0])]

/-- /repo/pyTMD/data/doodson.json. -/
def table : List (String × List ℤ) :=
  table0 ++ table1 ++ table2 ++ table3 ++ table4

/-- The table in use (`coefficients_table`, /repo/pyTMD/arguments.py 371-377): s1 is replaced
for OTIS-type corrections. -/
def lookup (otis : Bool) (c : String) : Option (List ℤ) :=
  if otis && c == "s1" then some [1, 1, -1, 0, 0, 0, 1] else table.lookup c

end Verif.Coef
