import Verif.Model.Types
/-! Generated by tools/gen_table.py from the text of F15_Parser/F15TokenSyntaxDescriptions.py. -/

namespace F15

/-- `F15TokenSyntaxDefinition.MAX_TOKEN_LENGTH` (F15TokenSyntaxDescriptions.py:161) -/
def maxTokenLength : Nat := 25

/-- One row of `F15_SB_CONFIGURATION`: pattern text, base type, subtype. -/
structure Row where
  pattern : Str
  base : BaseType
  sub : SubType
deriving DecidableEq, Repr

/-- `F15TokenSyntaxDefinition.F15_SB_CONFIGURATION` (F15TokenSyntaxDescriptions.py:164-380); the source
line of each row is given behind it. -/
def table : List Row := [
  ⟨py! "/", .SLASH, .SLASH⟩, -- 167
  ⟨py! "VFR", .BREAK_START, .VFR⟩, -- 169
  ⟨py! "M[0-9]{3}VFR", .SPEED_VFR, .SPEED_ALTITUDE_MV⟩, -- 171
  ⟨py! "N[0-9]{4}VFR", .SPEED_VFR, .SPEED_ALTITUDE_NV⟩, -- 173
  ⟨py! "K[0-9]{4}VFR", .SPEED_VFR, .SPEED_ALTITUDE_KV⟩, -- 175
  ⟨py! "IFR", .BREAK_END, .IFR⟩, -- 177
  ⟨py! "DCT", .DCT, .DCT⟩, -- 179
  ⟨py! "OAT", .BREAK_START, .OAT⟩, -- 181
  ⟨py! "GAT", .BREAK_END, .GAT⟩, -- 183
  ⟨py! "IFPSTOP", .BREAK_START, .IFPSTOP⟩, -- 185
  ⟨py! "IFPSTART", .BREAK_END, .IFPSTART⟩, -- 187
  ⟨py! "STAY[0-9]", .STAY, .STAY⟩, -- 189
  ⟨py! "([01][0-9][0-5][0-9]|2[0-3][0-5][0-9])", .STAY_TIME, .STAY_TIME⟩, -- 191
  ⟨py! "T", .TRUNCATE, .TRUNCATE⟩, -- 193
  ⟨py! "C", .C, .C⟩, -- 195
  ⟨py! "SID", .SID, .SID_LITERAL⟩, -- 197
  ⟨py! "STAR", .STAR, .STAR_LITERAL⟩, -- 199
  ⟨py! "NAT[A-Z]", .ROUTE, .NAT⟩, -- 201
  ⟨py! "NAT[A-Z][0-9]", .ROUTE, .NAT⟩, -- 202
  ⟨py! "PTS[0-9]", .ROUTE, .PTS⟩, -- 204
  ⟨py! "PTS[A-Z]", .ROUTE, .PTS⟩, -- 205
  ⟨py! "[A-Z]{1,3}", .POINT, .PRP⟩, -- 209
  ⟨py! "[A-Z]{4}", .POINT, .PRP_AERO⟩, -- 211
  ⟨py! "[A-Z]{5}", .POINT, .PRP⟩, -- 213
  ⟨py! "[A-Z]{1,5}[0-9]{6}", .POINT, .PRP_BD⟩, -- 215
  ⟨py! "[0-9]{2}[NS][0-9]{3}[EW]", .POINT, .LL_DEG⟩, -- 217
  ⟨py! "[0-9]{4}[NS][0-9]{5}[EW]", .POINT, .LL_MIN⟩, -- 219
  ⟨py! "[0-9]{2}[NS][0-9]{3}[EW][0-9]{6}", .POINT, .LLBD_DEG⟩, -- 221
  ⟨py! "[0-9]{4}[NS][0-9]{5}[EW][0-9]{6}", .POINT, .LLBD_MIN⟩, -- 223
  ⟨py! "[A-Z]{1,2}[0-9]", .ROUTE, .ATS⟩, -- 227
  ⟨py! "[A-Z][0-9]{1,3}[A-Z]", .ROUTE, .ATS⟩, -- 229
  ⟨py! "[A-Z][0-9]{2,3}", .ROUTE, .ATS⟩, -- 231
  ⟨py! "[A-Z]{3}[0-9]{3}", .ROUTE, .ATS_TURK⟩, -- 233
  ⟨py! "[A-Z]{3}[0-9]{1,2}", .ROUTE, .ATS_OLD⟩, -- 235
  ⟨py! "[A-Z]{2}[0-9][A-Z]", .ROUTE, .ATS⟩, -- 237
  ⟨py! "[A-Z]{2}[0-9]{2,3}", .ROUTE, .ATS⟩, -- 239
  ⟨py! "[A-Z]{4}[0-9]{1,2}", .ROUTE, .ATS_RUS⟩, -- 241
  ⟨py! "[A-Z]{2}[0-9]{2,3}[A-Z]", .ROUTE, .ATS⟩, -- 243
  ⟨py! "[A-Z][0-9]{3}[A-Z]", .ROUTE, .ATS_TURK⟩, -- 245
  ⟨py! "[A-Z]{3}[0-9]{1,2}[A-Z]", .SID_STAR, .STAR⟩, -- 249
  ⟨py! "[A-Z]{5}[0-9]{1,2}", .SID_STAR, .STAR⟩, -- 251
  ⟨py! "[A-Z]{4,6}[0-9][A-Z]", .SID_STAR, .STAR⟩, -- 253
  ⟨py! "[A-Z]{5}[0-9]{2}[A-Z]", .SID_STAR, .STAR⟩, -- 255
  ⟨py! "M[0-9]{3}F[0-9]{3}", .SPEED_ALTITUDE, .SPEED_ALTITUDE_MF⟩, -- 258
  ⟨py! "M[0-9]{3}S[0-9]{4}", .SPEED_ALTITUDE, .SPEED_ALTITUDE_MS⟩, -- 259
  ⟨py! "M[0-9]{3}A[0-9]{3}", .SPEED_ALTITUDE, .SPEED_ALTITUDE_MA⟩, -- 260
  ⟨py! "M[0-9]{3}M[0-9]{4}", .SPEED_ALTITUDE, .SPEED_ALTITUDE_MM⟩, -- 261
  ⟨py! "K[0-9]{4}F[0-9]{3}", .SPEED_ALTITUDE, .SPEED_ALTITUDE_KF⟩, -- 262
  ⟨py! "K[0-9]{4}S[0-9]{4}", .SPEED_ALTITUDE, .SPEED_ALTITUDE_KS⟩, -- 263
  ⟨py! "K[0-9]{4}A[0-9]{3}", .SPEED_ALTITUDE, .SPEED_ALTITUDE_KA⟩, -- 264
  ⟨py! "K[0-9]{4}M[0-9]{4}", .SPEED_ALTITUDE, .SPEED_ALTITUDE_KM⟩, -- 265
  ⟨py! "N[0-9]{4}F[0-9]{3}", .SPEED_ALTITUDE, .SPEED_ALTITUDE_NF⟩, -- 266
  ⟨py! "N[0-9]{4}S[0-9]{4}", .SPEED_ALTITUDE, .SPEED_ALTITUDE_NS⟩, -- 267
  ⟨py! "N[0-9]{4}A[0-9]{3}", .SPEED_ALTITUDE, .SPEED_ALTITUDE_NA⟩, -- 268
  ⟨py! "N[0-9]{4}M[0-9]{4}", .SPEED_ALTITUDE, .SPEED_ALTITUDE_NM⟩, -- 269
  ⟨py! "M[0-9]{3}F[0-9]{3}F[0-9]{3}", .SPEED_ALTITUDE_ALTITUDE, .SPEED_ALTITUDE_MFF⟩, -- 272
  ⟨py! "M[0-9]{3}F[0-9]{3}S[0-9]{4}", .SPEED_ALTITUDE_ALTITUDE, .SPEED_ALTITUDE_MFS⟩, -- 274
  ⟨py! "M[0-9]{3}F[0-9]{3}A[0-9]{3}", .SPEED_ALTITUDE_ALTITUDE, .SPEED_ALTITUDE_MFA⟩, -- 276
  ⟨py! "M[0-9]{3}F[0-9]{3}M[0-9]{4}", .SPEED_ALTITUDE_ALTITUDE, .SPEED_ALTITUDE_MFM⟩, -- 278
  ⟨py! "M[0-9]{3}S[0-9]{4}F[0-9]{3}", .SPEED_ALTITUDE_ALTITUDE, .SPEED_ALTITUDE_MSF⟩, -- 280
  ⟨py! "M[0-9]{3}S[0-9]{4}S[0-9]{4}", .SPEED_ALTITUDE_ALTITUDE, .SPEED_ALTITUDE_MSS⟩, -- 282
  ⟨py! "M[0-9]{3}S[0-9]{4}A[0-9]{3}", .SPEED_ALTITUDE_ALTITUDE, .SPEED_ALTITUDE_MSA⟩, -- 284
  ⟨py! "M[0-9]{3}S[0-9]{4}M[0-9]{4}", .SPEED_ALTITUDE_ALTITUDE, .SPEED_ALTITUDE_MSM⟩, -- 286
  ⟨py! "M[0-9]{3}A[0-9]{3}F[0-9]{3}", .SPEED_ALTITUDE_ALTITUDE, .SPEED_ALTITUDE_MAF⟩, -- 288
  ⟨py! "M[0-9]{3}A[0-9]{3}S[0-9]{4}", .SPEED_ALTITUDE_ALTITUDE, .SPEED_ALTITUDE_MAS⟩, -- 290
  ⟨py! "M[0-9]{3}A[0-9]{3}A[0-9]{3}", .SPEED_ALTITUDE_ALTITUDE, .SPEED_ALTITUDE_MAA⟩, -- 292
  ⟨py! "M[0-9]{3}A[0-9]{3}M[0-9]{4}", .SPEED_ALTITUDE_ALTITUDE, .SPEED_ALTITUDE_MAM⟩, -- 294
  ⟨py! "M[0-9]{3}M[0-9]{4}F[0-9]{3}", .SPEED_ALTITUDE_ALTITUDE, .SPEED_ALTITUDE_MMF⟩, -- 296
  ⟨py! "M[0-9]{3}M[0-9]{4}S[0-9]{4}", .SPEED_ALTITUDE_ALTITUDE, .SPEED_ALTITUDE_MMS⟩, -- 298
  ⟨py! "M[0-9]{3}M[0-9]{4}A[0-9]{3}", .SPEED_ALTITUDE_ALTITUDE, .SPEED_ALTITUDE_MMA⟩, -- 300
  ⟨py! "M[0-9]{3}M[0-9]{4}M[0-9]{4}", .SPEED_ALTITUDE_ALTITUDE, .SPEED_ALTITUDE_MMM⟩, -- 302
  ⟨py! "N[0-9]{4}F[0-9]{3}F[0-9]{3}", .SPEED_ALTITUDE_ALTITUDE, .SPEED_ALTITUDE_NFF⟩, -- 304
  ⟨py! "N[0-9]{4}F[0-9]{3}S[0-9]{4}", .SPEED_ALTITUDE_ALTITUDE, .SPEED_ALTITUDE_NFS⟩, -- 306
  ⟨py! "N[0-9]{4}F[0-9]{3}A[0-9]{3}", .SPEED_ALTITUDE_ALTITUDE, .SPEED_ALTITUDE_NFA⟩, -- 308
  ⟨py! "N[0-9]{4}F[0-9]{3}M[0-9]{4}", .SPEED_ALTITUDE_ALTITUDE, .SPEED_ALTITUDE_NFM⟩, -- 310
  ⟨py! "N[0-9]{4}S[0-9]{4}F[0-9]{3}", .SPEED_ALTITUDE_ALTITUDE, .SPEED_ALTITUDE_NSF⟩, -- 312
  ⟨py! "N[0-9]{4}S[0-9]{4}S[0-9]{4}", .SPEED_ALTITUDE_ALTITUDE, .SPEED_ALTITUDE_NSS⟩, -- 314
  ⟨py! "N[0-9]{4}S[0-9]{4}A[0-9]{3}", .SPEED_ALTITUDE_ALTITUDE, .SPEED_ALTITUDE_NSA⟩, -- 316
  ⟨py! "N[0-9]{4}S[0-9]{4}M[0-9]{4}", .SPEED_ALTITUDE_ALTITUDE, .SPEED_ALTITUDE_NSM⟩, -- 318
  ⟨py! "N[0-9]{4}A[0-9]{3}F[0-9]{3}", .SPEED_ALTITUDE_ALTITUDE, .SPEED_ALTITUDE_NAF⟩, -- 320
  ⟨py! "N[0-9]{4}A[0-9]{4}S[0-9]{4}", .SPEED_ALTITUDE_ALTITUDE, .SPEED_ALTITUDE_NAS⟩, -- 322
  ⟨py! "N[0-9]{4}A[0-9]{3}A[0-9]{3}", .SPEED_ALTITUDE_ALTITUDE, .SPEED_ALTITUDE_NAA⟩, -- 324
  ⟨py! "N[0-9]{4}A[0-9]{4}M[0-9]{4}", .SPEED_ALTITUDE_ALTITUDE, .SPEED_ALTITUDE_NAM⟩, -- 326
  ⟨py! "N[0-9]{4}M[0-9]{4}F[0-9]{3}", .SPEED_ALTITUDE_ALTITUDE, .SPEED_ALTITUDE_NMF⟩, -- 328
  ⟨py! "N[0-9]{4}M[0-9]{4}S[0-9]{4}", .SPEED_ALTITUDE_ALTITUDE, .SPEED_ALTITUDE_NMS⟩, -- 330
  ⟨py! "N[0-9]{4}M[0-9]{4}A[0-9]{3}", .SPEED_ALTITUDE_ALTITUDE, .SPEED_ALTITUDE_NMA⟩, -- 332
  ⟨py! "N[0-9]{4}M[0-9]{4}M[0-9]{4}", .SPEED_ALTITUDE_ALTITUDE, .SPEED_ALTITUDE_NMM⟩, -- 334
  ⟨py! "K[0-9]{4}F[0-9]{3}F[0-9]{3}", .SPEED_ALTITUDE_ALTITUDE, .SPEED_ALTITUDE_KFF⟩, -- 336
  ⟨py! "K[0-9]{4}F[0-9]{3}S[0-9]{4}", .SPEED_ALTITUDE_ALTITUDE, .SPEED_ALTITUDE_KFS⟩, -- 338
  ⟨py! "K[0-9]{4}F[0-9]{3}A[0-9]{3}", .SPEED_ALTITUDE_ALTITUDE, .SPEED_ALTITUDE_KFS⟩, -- 340
  ⟨py! "K[0-9]{4}F[0-9]{3}M[0-9]{4}", .SPEED_ALTITUDE_ALTITUDE, .SPEED_ALTITUDE_KFM⟩, -- 342
  ⟨py! "K[0-9]{4}S[0-9]{4}F[0-9]{3}", .SPEED_ALTITUDE_ALTITUDE, .SPEED_ALTITUDE_KSF⟩, -- 344
  ⟨py! "K[0-9]{4}S[0-9]{4}S[0-9]{4}", .SPEED_ALTITUDE_ALTITUDE, .SPEED_ALTITUDE_KSS⟩, -- 346
  ⟨py! "K[0-9]{4}S[0-9]{4}A[0-9]{3}", .SPEED_ALTITUDE_ALTITUDE, .SPEED_ALTITUDE_KSA⟩, -- 348
  ⟨py! "K[0-9]{4}S[0-9]{4}M[0-9]{4}", .SPEED_ALTITUDE_ALTITUDE, .SPEED_ALTITUDE_KSM⟩, -- 350
  ⟨py! "K[0-9]{4}A[0-9]{3}F[0-9]{3}", .SPEED_ALTITUDE_ALTITUDE, .SPEED_ALTITUDE_KAF⟩, -- 352
  ⟨py! "K[0-9]{4}A[0-9]{3}S[0-9]{4}", .SPEED_ALTITUDE_ALTITUDE, .SPEED_ALTITUDE_KAS⟩, -- 354
  ⟨py! "K[0-9]{4}A[0-9]{3}A[0-9]{3}", .SPEED_ALTITUDE_ALTITUDE, .SPEED_ALTITUDE_KAA⟩, -- 356
  ⟨py! "K[0-9]{4}A[0-9]{3}M[0-9]{4}", .SPEED_ALTITUDE_ALTITUDE, .SPEED_ALTITUDE_KAM⟩, -- 358
  ⟨py! "K[0-9]{4}M[0-9]{4}F[0-9]{3}", .SPEED_ALTITUDE_ALTITUDE, .SPEED_ALTITUDE_KMF⟩, -- 360
  ⟨py! "K[0-9]{4}M[0-9]{4}S[0-9]{4}", .SPEED_ALTITUDE_ALTITUDE, .SPEED_ALTITUDE_KMS⟩, -- 362
  ⟨py! "K[0-9]{4}M[0-9]{4}A[0-9]{3}", .SPEED_ALTITUDE_ALTITUDE, .SPEED_ALTITUDE_KMA⟩, -- 364
  ⟨py! "K[0-9]{4}M[0-9]{4}M[0-9]{4}", .SPEED_ALTITUDE_ALTITUDE, .SPEED_ALTITUDE_KMM⟩, -- 366
  ⟨py! "M[0-9]{3}F[0-9]{3}PLUS", .SPEED_ALTITUDE_PLUS, .SPEED_ALTITUDE_MF_P⟩, -- 368
  ⟨py! "M[0-9]{3}S[0-9]{4}PLUS", .SPEED_ALTITUDE_PLUS, .SPEED_ALTITUDE_MS_P⟩, -- 369
  ⟨py! "M[0-9]{3}A[0-9]{3}PLUS", .SPEED_ALTITUDE_PLUS, .SPEED_ALTITUDE_MA_P⟩, -- 370
  ⟨py! "M[0-9]{3}M[0-9]{4}PLUS", .SPEED_ALTITUDE_PLUS, .SPEED_ALTITUDE_MM_P⟩, -- 371
  ⟨py! "N[0-9]{4}F[0-9]{3}PLUS", .SPEED_ALTITUDE_PLUS, .SPEED_ALTITUDE_NF_P⟩, -- 372
  ⟨py! "N[0-9]{4}S[0-9]{4}PLUS", .SPEED_ALTITUDE_PLUS, .SPEED_ALTITUDE_NS_P⟩, -- 373
  ⟨py! "N[0-9]{4}A[0-9]{3}PLUS", .SPEED_ALTITUDE_PLUS, .SPEED_ALTITUDE_NA_P⟩, -- 374
  ⟨py! "N[0-9]{4}M[0-9]{4}PLUS", .SPEED_ALTITUDE_PLUS, .SPEED_ALTITUDE_NM_P⟩, -- 375
  ⟨py! "K[0-9]{4}F[0-9]{3}PLUS", .SPEED_ALTITUDE_PLUS, .SPEED_ALTITUDE_KF_P⟩, -- 376
  ⟨py! "K[0-9]{4}S[0-9]{4}PLUS", .SPEED_ALTITUDE_PLUS, .SPEED_ALTITUDE_KS_P⟩, -- 377
  ⟨py! "K[0-9]{4}A[0-9]{3}PLUS", .SPEED_ALTITUDE_PLUS, .SPEED_ALTITUDE_KA_P⟩, -- 378
  ⟨py! "K[0-9]{4}M[0-9]{4}PLUS", .SPEED_ALTITUDE_PLUS, .SPEED_ALTITUDE_KM_P⟩ -- 379
]

end F15
