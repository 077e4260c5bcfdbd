import Mathlib.Data.Real.Basic
import Mathlib.Algebra.BigOperators.Group.List.Basic

/-!
# Compound tides

What a compound (shallow water) tide is: a product of elementary tides, written in the name.
`mns2`, say, is M2 + N2 - S2: its argument is the sum of the arguments with those signs.  Where
a name leaves the signs open they follow from the species (the last digit of the name).

The nodal corrections follow the same sum: the factor is the product of the factors of the
parents, each to the absolute value of its multiple, the angle is the sum of the multiples of
the angles.  The elementary lunar tides M2, N2, nu2 and mu2 share the modulation of M2; the solar
tides have none (Schureman 1958).
-/

namespace Verif.Spec

/-- The compound tides with a nodal correction of their own in the program, and their parents. -/
def compounds : List (String × List (ℤ × String)) := [
  ("so3", [(1, "s2"), (1, "o1")]),
  ("op2", [(1, "o1"), (1, "p1")]),
  ("sk3", [(1, "s2"), (1, "k1")]),
  ("2sk5", [(2, "s2"), (1, "k1")]),
  ("ms4", [(1, "m2"), (1, "s2")]),
  ("2sm6", [(2, "s2"), (1, "m2")]),
  ("2sn6", [(2, "s2"), (1, "n2")]),
  ("mp1", [(1, "m2"), (-1, "p1")]),
  ("mp3", [(1, "m2"), (1, "p1")]),
  ("sn4", [(1, "s2"), (1, "n2")]),
  ("sl4", [(1, "s2"), (1, "l2")]),
  ("sk4", [(1, "s2"), (1, "k2")]),
  ("2sk6", [(2, "s2"), (1, "k2")]),
  ("kp1", [(1, "k2"), (-1, "p1")]),
  ("so1", [(1, "s2"), (-1, "o1")]),
  ("2so3", [(2, "s2"), (-1, "o1")]),
  ("2po1", [(2, "p1"), (-1, "o1")]),
  ("o3", [(3, "o1")]),
  ("tk1", [(1, "t2"), (-1, "k1")]),
  ("2oop1", [(2, "oo1"), (-1, "p1")]),
  ("oq2", [(1, "o1"), (1, "q1")]),
  ("2oq1", [(2, "o1"), (-1, "q1")]),
  ("ko2", [(1, "k1"), (1, "o1")]),
  ("opk1", [(1, "o1"), (1, "p1"), (-1, "k1")]),
  ("2ook1", [(2, "oo1"), (-1, "k1")]),
  ("kj2", [(1, "k1"), (1, "j1")]),
  ("kjq1", [(1, "k1"), (1, "j1"), (-1, "q1")]),
  ("k3", [(1, "k1"), (1, "k2")]),
  ("m4", [(2, "m2")]),
  ("mn4", [(1, "m2"), (1, "n2")]),
  ("mns2", [(1, "m2"), (1, "n2"), (-1, "s2")]),
  ("2ms2", [(2, "m2"), (-1, "s2")]),
  ("mnus2", [(1, "m2"), (1, "nu2"), (-1, "s2")]),
  ("mmus2", [(1, "m2"), (1, "mu2"), (-1, "s2")]),
  ("2ns2", [(2, "n2"), (-1, "s2")]),
  ("n4", [(2, "n2")]),
  ("mnu4", [(1, "m2"), (1, "nu2")]),
  ("mmu4", [(1, "m2"), (1, "mu2")]),
  ("2mt6", [(2, "m2"), (1, "t2")]),
  ("2ms6", [(2, "m2"), (1, "s2")]),
  ("msn6", [(1, "m2"), (1, "s2"), (1, "n2")]),
  ("mns6", [(1, "m2"), (1, "n2"), (1, "s2")]),
  ("2mr6", [(2, "m2"), (1, "r2")]),
  ("msmu6", [(1, "m2"), (1, "s2"), (1, "mu2")]),
  ("2mp3", [(2, "m2"), (-1, "p1")]),
  ("2ms3", [(2, "m2"), (-1, "s1")]),
  ("2mp5", [(2, "m2"), (1, "p1")]),
  ("2msp7", [(2, "m2"), (1, "s2"), (1, "p1")]),
  ("2(ms)8", [(2, "m2"), (2, "s2")]),
  ("2ms8", [(2, "m2"), (2, "s2")]),
  ("msn2", [(1, "m2"), (1, "s2"), (-1, "n2")]),
  ("snm2", [(1, "s2"), (1, "n2"), (-1, "m2")]),
  ("nsm2", [(1, "n2"), (1, "s2"), (-1, "m2")]),
  ("mmun2", [(1, "m2"), (1, "mu2"), (-1, "n2")]),
  ("2mn2", [(2, "m2"), (-1, "n2")]),
  ("2sm2", [(2, "s2"), (-1, "m2")]),
  ("m6", [(3, "m2")]),
  ("2mn6", [(2, "m2"), (1, "n2")]),
  ("2mnu6", [(2, "m2"), (1, "nu2")]),
  ("2mmu6", [(2, "m2"), (1, "mu2")]),
  ("2nm6", [(2, "n2"), (1, "m2")]),
  ("mnnu6", [(1, "m2"), (1, "n2"), (1, "nu2")]),
  ("mnmu6", [(1, "m2"), (1, "n2"), (1, "mu2")]),
  ("3ms8", [(3, "m2"), (1, "s2")]),
  ("3mp7", [(3, "m2"), (1, "p1")]),
  ("2msn8", [(2, "m2"), (1, "s2"), (1, "n2")]),
  ("3ms5", [(3, "m2"), (-1, "s1")]),
  ("3mp5", [(3, "m2"), (-1, "p1")]),
  ("3ms4", [(3, "m2"), (-1, "s2")]),
  ("3m2s2", [(3, "m2"), (-2, "s2")]),
  ("3m2s10", [(3, "m2"), (2, "s2")]),
  ("2mn2s2", [(2, "m2"), (1, "n2"), (-2, "s2")]),
  ("m8", [(4, "m2")]),
  ("3mn8", [(3, "m2"), (1, "n2")]),
  ("3mnu8", [(3, "m2"), (1, "nu2")]),
  ("3mmu8", [(3, "m2"), (1, "mu2")]),
  ("2mn8", [(2, "m2"), (2, "n2")]),
  ("2(mn):8", [(2, "m2"), (2, "n2")]),
  ("3msn10", [(3, "m2"), (1, "s2"), (1, "n2")]),
  ("4ms10", [(4, "m2"), (1, "s2")]),
  ("2(mn)S10", [(2, "m2"), (2, "n2"), (1, "s2")]),
  ("4m2s12", [(4, "m2"), (2, "s2")]),
  ("m10", [(5, "m2")]),
  ("4mn10", [(4, "m2"), (1, "n2")]),
  ("5ms12", [(5, "m2"), (1, "s2")]),
  ("4msn12", [(4, "m2"), (1, "s2"), (1, "n2")]),
  ("4mns12", [(4, "m2"), (1, "n2"), (1, "s2")]),
  ("m12", [(6, "m2")]),
  ("5mn12", [(5, "m2"), (1, "n2")]),
  ("6ms14", [(6, "m2"), (1, "s2")]),
  ("5msn14", [(5, "m2"), (1, "s2"), (1, "n2")]),
  ("m14", [(7, "m2")]),
  ("mo3", [(1, "m2"), (1, "o1")]),
  ("no3", [(1, "n2"), (1, "o1")]),
  ("mso5", [(1, "m2"), (1, "s2"), (1, "o1")]),
  ("no1", [(1, "n2"), (-1, "o1")]),
  ("nso3", [(1, "n2"), (1, "s2"), (-1, "o1")]),
  ("mq3", [(1, "m2"), (1, "q1")]),
  ("nq3", [(1, "n2"), (1, "q1")]),
  ("2mq3", [(2, "m2"), (-1, "q1")]),
  ("2no3", [(2, "n2"), (-1, "o1")]),
  ("2mo5", [(2, "m2"), (1, "o1")]),
  ("2no5", [(2, "n2"), (1, "o1")]),
  ("mno5", [(1, "m2"), (1, "n2"), (1, "o1")]),
  ("2mso7", [(2, "m2"), (1, "s2"), (1, "o1")]),
  ("2(ms):o9", [(2, "m2"), (2, "s2"), (1, "o1")]),
  ("2mno7", [(2, "m2"), (1, "n2"), (1, "o1")]),
  ("3mo7", [(3, "m2"), (1, "o1")]),
  ("mk3", [(1, "m2"), (1, "k1")]),
  ("nk3", [(1, "n2"), (1, "k1")]),
  ("msk5", [(1, "m2"), (1, "s2"), (1, "k1")]),
  ("nsk5", [(1, "n2"), (1, "s2"), (1, "k1")]),
  ("mnk5", [(1, "m2"), (1, "n2"), (1, "k1")]),
  ("2mk5", [(2, "m2"), (1, "k1")]),
  ("2nk5", [(2, "n2"), (1, "k1")]),
  ("2msk7", [(2, "m2"), (1, "s2"), (1, "k1")]),
  ("2mk3", [(2, "m2"), (-1, "k1")]),
  ("3mk7", [(3, "m2"), (1, "k1")]),
  ("2mnk7", [(2, "m2"), (1, "n2"), (1, "k1")]),
  ("2nmk7", [(2, "n2"), (1, "m2"), (1, "k1")]),
  ("3nk7", [(3, "n2"), (1, "k1")]),
  ("3msk9", [(3, "m2"), (1, "s2"), (1, "k1")]),
  ("3msk7", [(3, "m2"), (1, "s2"), (-1, "k1")]),
  ("4mk9", [(4, "m2"), (1, "k1")]),
  ("3mnk9", [(3, "m2"), (1, "n2"), (1, "k1")]),
  ("2m2nk9", [(2, "m2"), (2, "n2"), (1, "k1")]),
  ("2(mn):k9", [(2, "m2"), (2, "n2"), (1, "k1")]),
  ("3nmk9", [(3, "n2"), (1, "m2"), (1, "k1")]),
  ("4msk11", [(4, "m2"), (1, "s2"), (1, "k1")]),
  ("3km5", [(3, "k1"), (1, "m2")]),
  ("mk4", [(1, "m2"), (1, "k2")]),
  ("nk4", [(1, "n2"), (1, "k2")]),
  ("mks2", [(1, "m2"), (1, "k2"), (-1, "s2")]),
  ("msk2", [(1, "m2"), (1, "s2"), (-1, "k2")]),
  ("2smk4", [(2, "s2"), (1, "m2"), (-1, "k2")]),
  ("msk6", [(1, "m2"), (1, "s2"), (1, "k2")]),
  ("snk6", [(1, "s2"), (1, "n2"), (1, "k2")]),
  ("mnk6", [(1, "m2"), (1, "n2"), (1, "k2")]),
  ("2mk6", [(2, "m2"), (1, "k2")]),
  ("2msk8", [(2, "m2"), (1, "s2"), (1, "k2")]),
  ("msnk8", [(1, "m2"), (1, "s2"), (1, "n2"), (1, "k2")]),
  ("mnk2", [(1, "m2"), (1, "n2"), (-1, "k2")]),
  ("2mk2", [(2, "m2"), (-1, "k2")]),
  ("mkn2", [(1, "m2"), (1, "k2"), (-1, "n2")]),
  ("nkm2", [(1, "n2"), (1, "k2"), (-1, "m2")]),
  ("skm2", [(1, "s2"), (1, "k2"), (-1, "m2")]),
  ("3mk8", [(3, "m2"), (1, "k2")]),
  ("2mnk8", [(2, "m2"), (1, "n2"), (1, "k2")]),
  ("m2(ks):2", [(1, "m2"), (2, "k2"), (-2, "s2")]),
  ("2ms2k2", [(2, "m2"), (1, "s2"), (-2, "k2")]),
  ("mko5", [(1, "m2"), (1, "k2"), (1, "o1")]),
  ("msko7", [(1, "m2"), (1, "s2"), (1, "k2"), (1, "o1")]),
  ("ml4", [(1, "m2"), (1, "l2")]),
  ("msl6", [(1, "m2"), (1, "s2"), (1, "l2")]),
  ("2ml2", [(2, "m2"), (-1, "l2")]),
  ("2ml6", [(2, "m2"), (1, "l2")]),
  ("2ml2s2", [(2, "m2"), (1, "l2"), (-2, "s2")]),
  ("2mls4", [(2, "m2"), (1, "l2"), (-1, "s2")]),
  ("2msl8", [(2, "m2"), (1, "s2"), (1, "l2")]),
  ("2nmls6", [(2, "n2"), (1, "m2"), (1, "l2"), (-1, "s2")]),
  ("3mls6", [(3, "m2"), (1, "l2"), (-1, "s2")]),
  ("2mnls6", [(2, "m2"), (1, "n2"), (1, "l2"), (-1, "s2")]),
  ("3ml8", [(3, "m2"), (1, "l2")]),
  ("2mnl8", [(2, "m2"), (1, "n2"), (1, "l2")]),
  ("3msl10", [(3, "m2"), (1, "s2"), (1, "l2")]),
  ("4msl12", [(4, "m2"), (1, "s2"), (1, "l2")])]

/-- The other compound tides of the coefficient table and their parents. -/
def moreCompounds : List (String × List (ℤ × String)) := [
  ("sn0", [(1, "s2"), (-1, "n2")]),
  ("2smn0", [(2, "s2"), (-1, "m2"), (-1, "n2")]),
  ("2qj1", [(2, "q1"), (-1, "j1")]),
  ("2qk1", [(2, "q1"), (-1, "k1")]),
  ("2qs1", [(2, "q1"), (-1, "s1")]),
  ("2qp1", [(2, "q1"), (-1, "p1")]),
  ("2oj1", [(2, "o1"), (-1, "j1")]),
  ("2ok1", [(2, "o1"), (-1, "k1")]),
  ("np1", [(1, "n2"), (-1, "p1")]),
  ("ms1", [(1, "m2"), (-1, "s1")]),
  ("pqo1", [(1, "p1"), (1, "q1"), (-1, "o1")]),
  ("2pk1", [(2, "p1"), (-1, "k1")]),
  ("rp1", [(1, "r2"), (-1, "p1")]),
  ("opq1", [(1, "o1"), (1, "p1"), (-1, "q1")]),
  ("mq1", [(1, "m2"), (-1, "q1")]),
  ("kpq1", [(1, "k1"), (1, "p1"), (-1, "q1")]),
  ("kq1", [(1, "k2"), (-1, "q1")]),
  ("2jo1", [(2, "j1"), (-1, "o1")]),
  ("2jq1", [(2, "j1"), (-1, "q1")]),
  ("2nk2", [(2, "n2"), (-1, "k2")]),
  ("3m(sk)2", [(3, "m2"), (-1, "s2"), (-1, "k2")]),
  ("3mks2", [(3, "m2"), (-1, "k2"), (-1, "s2")]),
  ("mnk2s2", [(1, "m2"), (1, "n2"), (1, "k2"), (-2, "s2")]),
  ("2nm2", [(2, "n2"), (-1, "m2")]),
  ("2mk2s2", [(2, "m2"), (1, "k2"), (-2, "s2")]),
  ("nsk2", [(1, "n2"), (1, "s2"), (-1, "k2")]),
  ("snk2", [(1, "s2"), (1, "n2"), (-1, "k2")]),
  ("3m(sn)2", [(3, "m2"), (-1, "s2"), (-1, "n2")]),
  ("nks2", [(1, "n2"), (1, "k2"), (-1, "s2")]),
  ("nkp2", [(1, "n2"), (1, "k1"), (-1, "p1")]),
  ("mkl2s2", [(1, "m2"), (1, "k2"), (1, "l2"), (-2, "s2")]),
  ("2kn2s2", [(2, "k2"), (1, "n2"), (-2, "s2")]),
  ("m2(ks)2", [(1, "m2"), (2, "k2"), (-2, "s2")]),
  ("2snmk2", [(2, "s2"), (1, "n2"), (-1, "m2"), (-1, "k2")]),
  ("2sn(mk)2", [(2, "s2"), (1, "n2"), (-1, "m2"), (-1, "k2")]),
  ("2sk2", [(2, "s2"), (-1, "k2")]),
  ("kp2", [(1, "k1"), (1, "p1")]),
  ("2ks2", [(2, "k2"), (-1, "s2")]),
  ("2pmn2", [(2, "p1"), (1, "m2"), (-1, "n2")]),
  ("msnu2", [(1, "m2"), (1, "s2"), (-1, "nu2")]),
  ("2kmsn2", [(2, "k2"), (1, "m2"), (-1, "s2"), (-1, "n2")]),
  ("2km(sn)2", [(2, "k2"), (1, "m2"), (-1, "s2"), (-1, "n2")]),
  ("2ms2n2", [(2, "m2"), (1, "s2"), (-2, "n2")]),
  ("2j2", [(2, "j1")]),
  ("2snu2", [(2, "s2"), (-1, "nu2")]),
  ("3(sm)n2", [(3, "s2"), (-3, "m2"), (1, "n2")]),
  ("2sn2", [(2, "s2"), (-1, "n2")]),
  ("skn2", [(1, "s2"), (1, "k2"), (-1, "n2")]),
  ("2kn2", [(2, "k2"), (-1, "n2")]),
  ("3s2m2", [(3, "s2"), (-2, "m2")]),
  ("2sk2m2", [(2, "s2"), (1, "k2"), (-2, "m2")]),
  ("2oq3", [(2, "o1"), (1, "q1")]),
  ("muo3", [(1, "mu2"), (1, "o1")]),
  ("mnp3", [(1, "m2"), (1, "n2"), (-1, "p1")]),
  ("2op3", [(2, "o1"), (1, "p1")]),
  ("2os3", [(2, "o1"), (1, "s1")]),
  ("2nkm3", [(2, "n2"), (1, "k1"), (-1, "m2")]),
  ("ns3", [(1, "n2"), (1, "s1")]),
  ("2oj3", [(2, "o1"), (1, "j1")]),
  ("ms3", [(1, "m2"), (1, "s1")]),
  ("pjrho3", [(1, "p1"), (1, "j1"), (1, "rho1")]),
  ("mks3", [(1, "m2"), (1, "k2"), (-1, "s1")]),
  ("mkp3", [(1, "m2"), (1, "k2"), (-1, "p1")]),
  ("sp3", [(1, "s2"), (1, "p1")]),
  ("2jp3", [(2, "j1"), (1, "p1")]),
  ("kso3", [(1, "k2"), (1, "s2"), (-1, "o1")]),
  ("2ko3", [(2, "k2"), (-1, "o1")]),
  ("2sq3", [(2, "s2"), (-1, "q1")]),
  ("2qm4", [(2, "q1"), (1, "m2")]),
  ("4m2s4", [(4, "m2"), (-2, "s2")]),
  ("2mnk4", [(2, "m2"), (1, "n2"), (-1, "k2")]),
  ("moq4", [(1, "m2"), (1, "o1"), (1, "q1")]),
  ("2mnus4", [(2, "m2"), (1, "nu2"), (-1, "s2")]),
  ("3mk4", [(3, "m2"), (-1, "k2")]),
  ("2om4", [(2, "o1"), (1, "m2")]),
  ("msnk4", [(1, "m2"), (1, "s2"), (1, "n2"), (-1, "k2")]),
  ("mpq4", [(1, "m2"), (1, "p1"), (1, "q1")]),
  ("mnks4", [(1, "m2"), (1, "n2"), (1, "k2"), (-1, "s2")]),
  ("2msk4", [(2, "m2"), (1, "s2"), (-1, "k2")]),
  ("mop4", [(1, "m2"), (1, "o1"), (1, "p1")]),
  ("2mks4", [(2, "m2"), (1, "k2"), (-1, "s2")]),
  ("3mn4", [(3, "m2"), (-1, "n2")]),
  ("2pm4", [(2, "p1"), (1, "m2")]),
  ("mt4", [(1, "m2"), (1, "t2")]),
  ("mr4", [(1, "m2"), (1, "r2")]),
  ("2snm4", [(2, "s2"), (1, "n2"), (-1, "m2")]),
  ("2msn4", [(2, "m2"), (1, "s2"), (-1, "n2")]),
  ("2mkn4", [(2, "m2"), (1, "k2"), (-1, "n2")]),
  ("mkj4", [(1, "m2"), (1, "k1"), (1, "j1")]),
  ("st4", [(1, "s2"), (1, "t2")]),
  ("3sm4", [(3, "s2"), (-1, "m2")]),
  ("2(kj)4", [(2, "k1"), (2, "j1")]),
  ("2mq5", [(2, "m2"), (1, "q1")]),
  ("nso5", [(1, "n2"), (1, "s2"), (1, "o1")]),
  ("2ms5", [(2, "m2"), (1, "s1")]),
  ("nks5", [(1, "n2"), (1, "k2"), (1, "s1")]),
  ("snk5", [(1, "s2"), (1, "n2"), (1, "k1")]),
  ("3mq5", [(3, "m2"), (-1, "q1")]),
  ("msp5", [(1, "m2"), (1, "s2"), (1, "p1")]),
  ("2sp5", [(2, "s2"), (1, "p1")]),
  ("2(mn)k6", [(2, "m2"), (2, "n2"), (-1, "k2")]),
  ("5mks6", [(5, "m2"), (-1, "k2"), (-1, "s2")]),
  ("2(mn)s6", [(2, "m2"), (2, "n2"), (-1, "s2")]),
  ("5m2s6", [(5, "m2"), (-2, "s2")]),
  ("3mnk6", [(3, "m2"), (1, "n2"), (-1, "k2")]),
  ("3mns6", [(3, "m2"), (1, "n2"), (-1, "s2")]),
  ("3nks6", [(3, "n2"), (1, "k2"), (-1, "s2")]),
  ("3mnus6", [(3, "m2"), (1, "nu2"), (-1, "s2")]),
  ("4mk6", [(4, "m2"), (-1, "k2")]),
  ("m2n6", [(1, "m2"), (2, "n2")]),
  ("4ms6", [(4, "m2"), (-1, "s2")]),
  ("2mlns6", [(2, "m2"), (1, "l2"), (1, "n2"), (-1, "s2")]),
  ("2nmks6", [(2, "n2"), (1, "m2"), (1, "k2"), (-1, "s2")]),
  ("2msnk6", [(2, "m2"), (1, "s2"), (1, "n2"), (-1, "k2")]),
  ("2mnks6", [(2, "m2"), (1, "n2"), (1, "k2"), (-1, "s2")]),
  ("3msk6", [(3, "m2"), (1, "s2"), (-1, "k2")]),
  ("2nk6", [(2, "n2"), (1, "k2")]),
  ("3mks6", [(3, "m2"), (1, "k2"), (-1, "s2")]),
  ("4mn6", [(4, "m2"), (-1, "n2")]),
  ("mkn6", [(1, "m2"), (1, "k2"), (1, "n2")]),
  ("mknu6", [(1, "m2"), (1, "k2"), (1, "nu2")]),
  ("2(ms)k6", [(2, "m2"), (2, "s2"), (-1, "k2")]),
  ("3msn6", [(3, "m2"), (1, "s2"), (-1, "n2")]),
  ("mkl6", [(1, "m2"), (1, "k2"), (1, "l2")]),
  ("3mkn6", [(3, "m2"), (1, "k2"), (-1, "n2")]),
  ("2km6", [(2, "k2"), (1, "m2")]),
  ("2(ms)n6", [(2, "m2"), (2, "s2"), (-1, "n2")]),
  ("2mskn6", [(2, "m2"), (1, "s2"), (1, "k2"), (-1, "n2")]),
  ("4sm6", [(4, "s2"), (-1, "m2")]),
  ("4mk7", [(4, "m2"), (-1, "k1")]),
  ("3sp7", [(3, "s2"), (1, "p1")]),
  ("3sk7", [(3, "s2"), (1, "k1")]),
  ("3m2ns8", [(3, "m2"), (2, "n2"), (-1, "s2")]),
  ("4mns8", [(4, "m2"), (1, "n2"), (-1, "s2")]),
  ("5mk8", [(5, "m2"), (-1, "k2")]),
  ("2(mn)8", [(2, "m2"), (2, "n2")]),
  ("5ms8", [(5, "m2"), (-1, "s2")]),
  ("4mls8", [(4, "m2"), (1, "l2"), (-1, "s2")]),
  ("3mt8", [(3, "m2"), (1, "t2")]),
  ("2smn8", [(2, "s2"), (1, "m2"), (1, "n2")]),
  ("2(mk)8", [(2, "m2"), (2, "k2")]),
  ("4mo9", [(4, "m2"), (1, "o1")]),
  ("2(mn)k9", [(2, "m2"), (2, "n2"), (1, "k1")]),
  ("4mp9", [(4, "m2"), (1, "p1")]),
  ("4ms9", [(4, "m2"), (1, "s1")]),
  ("4mk10", [(4, "m2"), (1, "k2")]),
  ("3msk10", [(3, "m2"), (1, "s2"), (1, "k2")]),
  ("5m2s14", [(5, "m2"), (2, "s2")])]

/-- Which elementary tide's modulation a parent follows, if any. -/
def modulated : String → Option String
  | "m2" => some "m2" | "n2" => some "m2" | "nu2" => some "m2" | "mu2" => some "m2"
  | "o1" => some "o1" | "k1" => some "k1" | "k2" => some "k2" | "q1" => some "q1"
  | "l2" => some "l2" | "j1" => some "j1" | "oo1" => some "oo1"
  | _ => none

/-- The nodal angle of a compound tide, from the angles `U` of the elementary tides. -/
noncomputable def angle (U : String → ℝ) (dec : List (ℤ × String)) : ℝ :=
  (dec.map fun q => match modulated q.2 with
    | some b => (q.1 : ℝ) * U b
    | none => 0).sum

/-- The nodal factor of a compound tide, from the factors `F` of the elementary tides. -/
noncomputable def factor (F : String → ℝ) (dec : List (ℤ × String)) : ℝ :=
  (dec.map fun q => match modulated q.2 with
    | some b => F b ^ q.1.natAbs
    | none => 1).prod

end Verif.Spec
