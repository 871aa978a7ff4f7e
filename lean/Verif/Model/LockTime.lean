import Verif.Model.Num
/-
Lock-time indicators   librtcm/src/decode.c:31-135, librtcm/src/encode.c:25-111
Durations are exact rationals (seconds), see DESIGN.md.
-/
namespace Verif.Lock

/-- `from_lock_ind` (DF013 etc., 7 bits) in seconds   librtcm/src/decode.c:34-55 -/
def fromLockInd (lock : Nat) : Nat :=
  if lock < 24 then lock
  else if lock < 48 then 2 * lock - 24
  else if lock < 72 then 4 * lock - 120
  else if lock < 96 then 8 * lock - 408
  else if lock < 120 then 16 * lock - 1176
  else if lock < 127 then 32 * lock - 3096
  else 937

/-- `to_lock_ind`; the `(uint8_t)` casts truncate   librtcm/src/encode.c:32-52 -/
def toLockInd (time : ℚ) : Nat :=
  if time < 24 then (ctrunc time).toNat
  else if time < 72 then (ctrunc ((time + 24) / 2)).toNat
  else if time < 168 then (ctrunc ((time + 120) / 4)).toNat
  else if time < 360 then (ctrunc ((time + 408) / 8)).toNat
  else if time < 744 then (ctrunc ((time + 1176) / 16)).toNat
  else if time < 937 then (ctrunc ((time + 3096) / 32)).toNat
  else 127

/-- `rtcm3_decode_lock_time` (DF402, 4 bits) in seconds   librtcm/src/decode.c:59-67 -/
def decodeLockTime (lock : Nat) : ℚ :=
  let l := lock % 16
  if l = 0 then 0 else ((32 * 2 ^ (l - 1) : Nat) : ℚ) / 1000

/-- `rtcm3_encode_lock_time`   librtcm/src/encode.c:60-110 -/
def encodeLockTime (time : ℚ) : Nat :=
  if time < 32 / 1000 then 0
  else if time < 64 / 1000 then 1
  else if time < 128 / 1000 then 2
  else if time < 256 / 1000 then 3
  else if time < 512 / 1000 then 4
  else if time < 1024 / 1000 then 5
  else if time < 2048 / 1000 then 6
  else if time < 4096 / 1000 then 7
  else if time < 8192 / 1000 then 8
  else if time < 16384 / 1000 then 9
  else if time < 32768 / 1000 then 10
  else if time < 65536 / 1000 then 11
  else if time < 131072 / 1000 then 12
  else if time < 262144 / 1000 then 13
  else if time < 524288 / 1000 then 14
  else 15

/-- `from_msm_lock_ind_ext` (DF407, 10 bits) in milliseconds; unsigned 32-bit arithmetic that never wraps.
librtcm/src/decode.c:71-135 -/
def fromLockIndExt (lock : Nat) : Nat :=
  if lock < 64 then lock
  else if lock < 96 then 2 * lock - 64
  else if lock < 128 then 4 * lock - 256
  else if lock < 160 then 8 * lock - 768
  else if lock < 192 then 16 * lock - 2048
  else if lock < 224 then 32 * lock - 5120
  else if lock < 256 then 64 * lock - 12288
  else if lock < 288 then 128 * lock - 28672
  else if lock < 320 then 256 * lock - 65536
  else if lock < 352 then 512 * lock - 147456
  else if lock < 384 then 1024 * lock - 327680
  else if lock < 416 then 2048 * lock - 720896
  else if lock < 448 then 4096 * lock - 1572864
  else if lock < 480 then 8192 * lock - 3407872
  else if lock < 512 then 16384 * lock - 7340032
  else if lock < 544 then 32768 * lock - 15728640
  else if lock < 576 then 65536 * lock - 33554432
  else if lock < 608 then 131072 * lock - 71303168
  else if lock < 640 then 262144 * lock - 150994944
  else if lock < 672 then 524288 * lock - 318767104
  else if lock < 704 then 1048576 * lock - 671088640
  else 67108864

end Verif.Lock
