/-!
Machine types shared by specification and model.
-/
namespace XXH

/-- `xxh_u8` -/
abbrev Byte := BitVec 8
/-- `xxh_u32` -/
abbrev W32 := BitVec 32
/-- `xxh_u64` -/
abbrev W64 := BitVec 64

/-- `XXH128_hash_t`, xxhash.h:1365-1368. -/
structure H128 where
  low64 : W64
  high64 : W64
deriving DecidableEq, Repr

/-- The eight 64-bit accumulators of XXH3 (`xxh_u64 acc[XXH_ACC_NB]`). -/
abbrev Acc := Vector W64 8

end XXH
