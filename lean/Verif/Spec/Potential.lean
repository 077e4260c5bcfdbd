import Mathlib.Analysis.SpecialFunctions.Complex.Arg
/-!
# What nodal corrections stand for

The tide-generating potential is a sum of lines.  Lines whose arguments differ only by multiples of the
longitudes of the lunar node and perigee cannot be told apart in a year of observations: they are treated as
one constituent, whose amplitude and phase are modulated slowly.
-/
namespace Verif.Spec.Potential

/-- A line of the potential: multiples of mean lunar time, of the longitudes of moon, sun, lunar perigee, of
`N'`, which is minus the longitude of the ascending node, of the solar perigee, and its amplitude. -/
structure Line where
  tau : ℤ
  s : ℤ
  h : ℤ
  p : ℤ
  n : ℤ
  pp : ℤ
  amplitude : ℚ
  deriving DecidableEq

/-- Lines that differ only in the multiples of node and perigee. -/
def near (a b : Line) : Bool := a.tau == b.tau && a.s == b.s && a.h == b.h && a.pp == b.pp

/-- The argument of a line minus that of the line `m`, in degrees, when the ascending node has the longitude
`N` and the perigee `p`. -/
def angle (m l : Line) (N p : ℝ) : ℝ := (l.p - m.p) * p - (l.n - m.n) * N

/-- The sum of the lines near `m` relative to the line `m`: factor and angle by which `m` is modulated. -/
noncomputable def modulation (lines : List Line) (m : Line) (N p : ℝ) : ℂ :=
  ((lines.filter (near m)).map fun l => ((l.amplitude / m.amplitude : ℚ) : ℂ) *
    Complex.exp ((angle m l N p * (Real.pi / 180) : ℝ) * Complex.I)).sum

/-- Angles of the astronomical arguments in degrees: mean lunar time, longitudes of moon, sun, lunar perigee,
ascending node and solar perigee. -/
structure Sky where
  tau : ℝ
  s : ℝ
  h : ℝ
  p : ℝ
  N : ℝ
  pp : ℝ

/-- The argument of a line in radians. -/
noncomputable def phase (l : Line) (x : Sky) : ℝ :=
  (l.tau * x.tau + l.s * x.s + l.h * x.h + l.p * x.p - l.n * x.N + l.pp * x.pp) * (Real.pi / 180)

/-- The sum of the lines near `m`, as rotating complex numbers. -/
noncomputable def together (lines : List Line) (m : Line) (x : Sky) : ℂ :=
  ((lines.filter (near m)).map fun l => (l.amplitude : ℂ) * Complex.exp (phase l x * Complex.I)).sum

/-- The function of time of a line: cosine or sine, as degree and order are both even or odd, or not. -/
noncomputable def wave (degree : ℕ) (tau : ℤ) (x : ℝ) : ℝ :=
  if (degree + tau) % 2 = 0 then Real.cos x else Real.sin x

/-- The sum of the lines near `m`, as the potential adds them. -/
noncomputable def potential (degree : ℕ) (lines : List Line) (m : Line) (x : Sky) : ℝ :=
  ((lines.filter (near m)).map fun l => (l.amplitude : ℝ) * wave degree l.tau (phase l x)).sum

/-- The sign with which the waves of a species are counted in tide models. -/
def sign (degree : ℕ) (tau : ℤ) : ℤ :=
  if degree = 2 then (if tau = 2 then 1 else -1) else (if tau = 3 then -1 else 1)

/-- Conventions of nodal corrections. -/
inductive Kind where
  | otis | got | perth3 | fes
  deriving DecidableEq

/-- The keywords of the conventions. -/
def Kind.keywords : Kind → List String
  | .otis => ["OTIS", "ATLAS", "TMD3", "netcdf"]
  | .got => ["GOT"]
  | .perth3 => ["perth3"]
  | .fes => ["FES"]

/-- A constituent, the degree of its main line and, for each convention, how far the corrections are from the sum
of the lines, relative to the main line.  `none` means that no small bound is claimed. -/
structure Entry where
  name : String
  degree : ℕ
  otis : Option ℚ
  got : Option ℚ
  perth3 : Option ℚ
  fes : Option ℚ

def Entry.bound (q : Entry) : Kind → Option ℚ
  | .otis => q.otis
  | .got => q.got
  | .perth3 => q.perth3
  | .fes => q.fes

/-- The constituents. -/
def entries : List Entry := [
  ⟨"z0", 2, some 0.0899, some 0.0899, some 0.0899, some 0.0899⟩,
  ⟨"sa", 2, some 0.0183, some 0.0183, some 0.0183, some 0.0183⟩,
  ⟨"ssa", 2, some 0.0413, some 0.0413, some 0.0413, some 0.0413⟩,
  ⟨"sta", 2, some 0.0166, some 0.0166, some 0.0166, some 0.0166⟩,
  ⟨"msm", 2, some 0.0201, some 0.0947, some 0.0947, some 0.0216⟩,
  ⟨"mm", 2, some 0.0830, some 0.0075, some 0.0075, some 0.0831⟩,
  ⟨"msf", 2, none, some 0.0138, some 0.0138, none⟩,
  ⟨"mf", 2, some 0.0571, some 0.0062, some 0.0062, some 0.0496⟩,
  ⟨"mst", 2, some 0.0626, some 0.0626, some 0.0626, some 0.0626⟩,
  ⟨"mt", 2, none, some 0.0057, some 0.0057, some 0.0266⟩,
  ⟨"mtm", 2, some 0.0309, some 0.0057, some 0.0057, some 0.0266⟩,
  ⟨"msqm", 2, some 0.0633, some 0.0141, some 0.0141, some 0.0582⟩,
  ⟨"mq", 2, some 0.0071, some 0.0464, some 0.0464, some 0.0042⟩,
  ⟨"msp", 2, some 0.0522, some 0.0885, some 0.0885, some 0.0464⟩,
  ⟨"2qp1", 2, some 0, some 0, some 0, some 0⟩,
  ⟨"2q1", 2, some 0.0123, some 0.0109, some 0.0109, some 0.0080⟩,
  ⟨"sigma1", 2, some 0.0155, some 0.0141, some 0.0141, some 0.0102⟩,
  ⟨"q1'", 3, some 0.0052, some 0.0052, some 0.0052, some 0.0052⟩,
  ⟨"q1", 2, some 0.0146, some 0.0132, some 0.0119, some 0.0080⟩,
  ⟨"rho1", 2, some 0.0821, some 0.0808, some 0.0808, some 0.0767⟩,
  ⟨"o1", 2, some 0.0116, some 0.0013, some 0.0122, some 0.0083⟩,
  ⟨"tau1", 2, none, some 0.0879, some 0.0879, some 0.0879⟩,
  ⟨"beta1", 2, some 0.0009, some 0.0009, some 0.0009, some 0.0009⟩,
  ⟨"m1'", 3, some 0.0007, some 0.0007, some 0.0007, some 0.0007⟩,
  ⟨"chi1", 2, some 0.0282, some 0.0013, some 0.0013, some 0.0285⟩,
  ⟨"pi1", 2, some 0.0085, some 0.0085, some 0.0085, some 0.0085⟩,
  ⟨"s1-1", 2, some 0.0139, some 0.0139, some 0.0139, some 0.0139⟩,
  ⟨"p1", 2, some 0.0139, some 0.0027, some 0.0139, some 0.0139⟩,
  ⟨"s1-", 2, some 0, some 0, some 0, some 0⟩,
  ⟨"s1+", 2, some 0.0277, some 0.0277, some 0.0277, some 0.0277⟩,
  ⟨"k1", 2, some 0.0004, some 0.0003, some 0.0022, some 0.0011⟩,
  ⟨"psi1", 2, some 0.0171, some 0.0171, some 0.0171, some 0.0171⟩,
  ⟨"rp1", 2, some 0.0171, some 0.0171, some 0.0171, some 0.0171⟩,
  ⟨"theta1", 2, none, some 0.0323, some 0.0323, some 0.0373⟩,
  ⟨"j1", 2, some 0.0349, some 0.0349, some 0.0349, some 0.0327⟩,
  ⟨"j1'", 3, some 0.0034, some 0.0034, some 0.0034, some 0.0034⟩,
  ⟨"oo1", 2, none, some 0.0435, some 0.0435, none⟩,
  ⟨"ups1", 2, some 0.0616, some 0.0912, some 0.0912, some 0.0714⟩,
  ⟨"3n2", 2, some 0.0389, some 0.0389, some 0.0389, some 0.0389⟩,
  ⟨"eps2", 2, some 0.0015, some 0.0015, some 0.0015, some 0.0017⟩,
  ⟨"2n2'", 3, some 0.0023, some 0.0023, some 0.0023, some 0.0023⟩,
  ⟨"2n2", 2, some 0.0070, some 0.0070, some 0.0070, some 0.0073⟩,
  ⟨"2nm2", 2, some 0.0438, some 0.0438, some 0.0438, some 0.0438⟩,
  ⟨"mu2", 2, some 0.0006, some 0.0006, some 0.0006, some 0.0009⟩,
  ⟨"omg2", 2, some 0.0385, some 0.0385, some 0.0385, some 0.0385⟩,
  ⟨"n2'", 3, some 0.0055, some 0.0055, some 0.0055, some 0.0055⟩,
  ⟨"n2", 2, some 0.0040, some 0.0040, some 0.0051, some 0.0043⟩,
  ⟨"nu2", 2, some 0.0085, some 0.0085, some 0.0085, some 0.0088⟩,
  ⟨"3m(sn)2", 2, some 0.0453, some 0.0453, some 0.0453, some 0.0453⟩,
  ⟨"gamma2", 2, some 0.0373, some 0.0373, some 0.0373, some 0.0373⟩,
  ⟨"alp2", 2, some 0.0230, some 0.0230, some 0.0230, some 0.0230⟩,
  ⟨"alpha2", 2, some 0.0230, some 0.0230, some 0.0230, some 0.0230⟩,
  ⟨"m2a", 2, some 0.0230, some 0.0230, some 0.0230, some 0.0230⟩,
  ⟨"m2", 2, some 0.0008, some 0.0008, some 0.0020, some 0.0011⟩,
  ⟨"m2b", 2, some 0.0209, some 0.0209, some 0.0209, some 0.0209⟩,
  ⟨"beta2", 2, some 0.0209, some 0.0209, some 0.0209, some 0.0209⟩,
  ⟨"delta2", 2, some 0.0117, some 0.0117, some 0.0117, some 0.0117⟩,
  ⟨"lambda2", 2, some 0.0451, some 0.0083, some 0.0083, some 0.0086⟩,
  ⟨"l2", 2, some 0.0238, some 0.0208, some 0.0208, none⟩,
  ⟨"l2'", 3, some 0.0016, some 0.0016, some 0.0016, some 0.0016⟩,
  ⟨"2t2", 2, some 0, some 0, some 0, some 0⟩,
  ⟨"t2", 2, some 0, some 0, some 0, some 0⟩,
  ⟨"kp2", 2, some 0.0024, some 0.0024, some 0.0024, some 0.0024⟩,
  ⟨"s2r", 2, some 0.0024, some 0.0024, some 0.0024, some 0.0024⟩,
  ⟨"s2", 2, some 0.0024, some 0.0002, some 0.0024, some 0.0024⟩,
  ⟨"r2", 2, some 0, some 0, some 0, some 0⟩,
  ⟨"k2", 2, some 0.0001, some 0.0001, some 0.0037, some 0.0054⟩,
  ⟨"2ks2", 2, some 0.0755, some 0.0755, some 0.0755, some 0.0755⟩,
  ⟨"eta2", 2, some 0.0764, some 0.0764, some 0.0764, some 0.0114⟩,
  ⟨"skn2", 2, some 0, some 0, some 0, some 0⟩,
  ⟨"e3", 3, some 0.0008, some 0.0008, some 0.0008, some 0.0008⟩,
  ⟨"m3", 3, some 0.0003, some 0.0003, some 0.0003, some 0.0019⟩,
  ⟨"m3'", 3, some 0.0563, some 0.0563, some 0.0563, some 0.0563⟩,
  ⟨"lambda3", 3, some 0, some 0, some 0, some 0⟩,
  ⟨"l3", 3, some 0.0022, some 0.0022, some 0.0022, some 0.0022⟩,
  ⟨"f3", 3, some 0.0080, some 0.0080, some 0.0080, some 0.0080⟩,
  ⟨"j3", 3, some 0.0080, some 0.0080, some 0.0080, some 0.0080⟩]

end Verif.Spec.Potential
