import Verif.Model.MatrixPartitionedTyings

/-! The attributes of the Python class `MatrixPartitionedTyings`, python/Matrix.hpp:84-147 (registered for this class in
python/MatrixPartitionedTyings.hpp:22-25). Every other attribute and method that the Python module defines (466 in total) is bound to the
C++ function of the same name, except `Element.assembleElementVector`, which is `assembleNodeVector` (python/Element.hpp:192-198). -/

namespace GF.MatrixPartitionedTyings.Python
variable {α : Type}

/-- `nnu`, python/Matrix.hpp:84 -/
def nnu (M : MatrixPartitionedTyings α) : Nat := M.nnu
/-- `nnp`, python/Matrix.hpp:85 -/
def nnp (M : MatrixPartitionedTyings α) : Nat := M.nnp
/-- `iiu`, python/Matrix.hpp:86 -/
def iiu (M : MatrixPartitionedTyings α) : List Nat := M.iiu
/-- `iip`, python/Matrix.hpp:87 -/
def iip (M : MatrixPartitionedTyings α) : List Nat := M.iip
/-- `nni`, python/Matrix.hpp:143: bound to `C::nnu` -/
def nni (M : MatrixPartitionedTyings α) : Nat := M.nnu
/-- `nnd`, python/Matrix.hpp:144: bound to `C::nnp` -/
def nnd (M : MatrixPartitionedTyings α) : Nat := M.nnp
/-- `iii`, python/Matrix.hpp:145: bound to `C::iiu` -/
def iii (M : MatrixPartitionedTyings α) : List Nat := M.iiu
/-- `iid`, python/Matrix.hpp:146: bound to `C::iip` -/
def iid (M : MatrixPartitionedTyings α) : List Nat := M.iip

end GF.MatrixPartitionedTyings.Python
