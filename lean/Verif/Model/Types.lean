import Verif.Model.Py
/-! Generated by tools/gen_table.py from the text of F15_Parser/F15TokenSyntaxDescriptions.py. -/

namespace F15

/-- `TokenBaseType` (F15TokenSyntaxDescriptions.py:5-29). The Python integer value is the constructor
number (`F15_UNKNOWN = 0`, the others `auto()`). -/
inductive BaseType
  | UNKNOWN
  | SLASH
  | BREAK_START
  | SPEED_VFR
  | BREAK_END
  | DCT
  | STAY
  | TRUNCATE
  | C
  | POINT
  | ROUTE
  | SID_STAR
  | SPEED_ALTITUDE
  | SPEED_ALTITUDE_ALTITUDE
  | SPEED_ALTITUDE_PLUS
  | TOO_LONG
  | STAY_TIME
  | SID
  | STAR
deriving DecidableEq, Repr

/-- `TokenSubType` (F15TokenSyntaxDescriptions.py:32-143). -/
inductive SubType
  | UNKNOWN
  | IFR
  | DCT
  | VFR
  | OAT
  | GAT
  | IFPSTART
  | IFPSTOP
  | STAY
  | TRUNCATE
  | C
  | SID_LITERAL
  | STAR_LITERAL
  | PRP
  | PRP_AERO
  | PRP_BD
  | LL_DEG
  | LL_MIN
  | LLBD_DEG
  | LLBD_MIN
  | ATS
  | ATS_OLD
  | ATS_TURK
  | ATS_RUS
  | STAR
  | SID
  | SPEED_ALTITUDE_KF
  | SPEED_ALTITUDE_KS
  | SPEED_ALTITUDE_KA
  | SPEED_ALTITUDE_KM
  | SPEED_ALTITUDE_KV
  | SPEED_ALTITUDE_NF
  | SPEED_ALTITUDE_NS
  | SPEED_ALTITUDE_NA
  | SPEED_ALTITUDE_NM
  | SPEED_ALTITUDE_NV
  | SPEED_ALTITUDE_MF
  | SPEED_ALTITUDE_MS
  | SPEED_ALTITUDE_MA
  | SPEED_ALTITUDE_MM
  | SPEED_ALTITUDE_MV
  | SPEED_ALTITUDE_KFF
  | SPEED_ALTITUDE_KFS
  | SPEED_ALTITUDE_KFA
  | SPEED_ALTITUDE_KFM
  | SPEED_ALTITUDE_KSF
  | SPEED_ALTITUDE_KSS
  | SPEED_ALTITUDE_KSA
  | SPEED_ALTITUDE_KSM
  | SPEED_ALTITUDE_KAF
  | SPEED_ALTITUDE_KAS
  | SPEED_ALTITUDE_KAA
  | SPEED_ALTITUDE_KAM
  | SPEED_ALTITUDE_KMF
  | SPEED_ALTITUDE_KMS
  | SPEED_ALTITUDE_KMA
  | SPEED_ALTITUDE_KMM
  | SPEED_ALTITUDE_NFF
  | SPEED_ALTITUDE_NFS
  | SPEED_ALTITUDE_NFA
  | SPEED_ALTITUDE_NFM
  | SPEED_ALTITUDE_NSF
  | SPEED_ALTITUDE_NSS
  | SPEED_ALTITUDE_NSA
  | SPEED_ALTITUDE_NSM
  | SPEED_ALTITUDE_NAF
  | SPEED_ALTITUDE_NAS
  | SPEED_ALTITUDE_NAA
  | SPEED_ALTITUDE_NAM
  | SPEED_ALTITUDE_NMF
  | SPEED_ALTITUDE_NMS
  | SPEED_ALTITUDE_NMA
  | SPEED_ALTITUDE_NMM
  | SPEED_ALTITUDE_MFF
  | SPEED_ALTITUDE_MFS
  | SPEED_ALTITUDE_MFA
  | SPEED_ALTITUDE_MFM
  | SPEED_ALTITUDE_MSF
  | SPEED_ALTITUDE_MSS
  | SPEED_ALTITUDE_MSA
  | SPEED_ALTITUDE_MSM
  | SPEED_ALTITUDE_MAF
  | SPEED_ALTITUDE_MAS
  | SPEED_ALTITUDE_MAA
  | SPEED_ALTITUDE_MAM
  | SPEED_ALTITUDE_MMF
  | SPEED_ALTITUDE_MMS
  | SPEED_ALTITUDE_MMA
  | SPEED_ALTITUDE_MMM
  | SPEED_ALTITUDE_KF_P
  | SPEED_ALTITUDE_KS_P
  | SPEED_ALTITUDE_KA_P
  | SPEED_ALTITUDE_KM_P
  | SPEED_ALTITUDE_NF_P
  | SPEED_ALTITUDE_NS_P
  | SPEED_ALTITUDE_NA_P
  | SPEED_ALTITUDE_NM_P
  | SPEED_ALTITUDE_MF_P
  | SPEED_ALTITUDE_MS_P
  | SPEED_ALTITUDE_MA_P
  | SPEED_ALTITUDE_MM_P
  | STAY_TIME
  | NAT
  | PTS
  | SLASH
deriving DecidableEq, Repr

/-- The `IntEnum` value of a base type. -/
def BaseType.val (b : BaseType) : Nat := b.ctorIdx

/-- The `IntEnum` value of a subtype. -/
def SubType.val (b : SubType) : Nat := b.ctorIdx

end F15
