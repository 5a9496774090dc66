import Verif.Proofs.DefiniteTables
/-! Kernel computations about the derivatives of the shape functions (continued). -/
namespace Gemlab.Definite

theorem chkIn_hex20 : chkIn .hex20 = true := by decide +kernel
theorem chkIn_hex32 : chkIn .hex32 = true := by decide +kernel

theorem chkIn_ok (k : GeoKind) : chkIn k = true := by
  cases k
  exacts [chkIn_lin2, chkIn_lin3, chkIn_lin4, chkIn_lin5, chkIn_tri3, chkIn_tri6, chkIn_tri10, chkIn_tri15, chkIn_qua4, chkIn_qua8, chkIn_qua9, chkIn_qua12, chkIn_qua16, chkIn_qua17, chkIn_tet4, chkIn_tet10, chkIn_tet20, chkIn_hex8, chkIn_hex20, chkIn_hex32]

end Gemlab.Definite
