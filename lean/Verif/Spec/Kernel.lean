/-!
Where the kernels of the Jet Propulsion Laboratory are on its server.
-/
namespace Verif.Spec

/-- The address of the kernel with a name. -/
def kernelAddress (name : List Char) : List Char :=
  "https://ssd.jpl.nasa.gov/ftp/eph/planets/bsp/".toList ++ name

end Verif.Spec
