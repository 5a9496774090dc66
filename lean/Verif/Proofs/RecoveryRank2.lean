import Verif.Proofs.RecoveryRank
/-! Kernel computations about the tables used for recovery, continued. -/
namespace Gemlab.Recov
theorem chkRank_tet20 : chkRank .tet20 = true := by decide +kernel
theorem chkRank_hex20 : chkRank .hex20 = true := by decide +kernel
theorem chkRank_hex32 : chkRank .hex32 = true := by decide +kernel

theorem chkRank_ok (k : GeoKind) : chkRank k = true := by
  cases k
  exacts [chkRank_lin2, chkRank_lin3, chkRank_lin4, chkRank_lin5, chkRank_tri3, chkRank_tri6, chkRank_tri10, chkRank_tri15, chkRank_qua4, chkRank_qua8, chkRank_qua9, chkRank_qua12, chkRank_qua16, chkRank_qua17, chkRank_tet4, chkRank_tet10, chkRank_tet20, chkRank_hex8, chkRank_hex20, chkRank_hex32]
end Gemlab.Recov
