/-!
MD5 (RFC 1321), the hash behind `hashlib.md5(...).hexdigest()`
(feedx/experiment_design.py:155-157 and 356-357), on lists of byte values.

The algorithm is modelled concretely (words are natural numbers below `2^32`).  Messages of `2^61`
or more bytes are outside the model (the length field is taken modulo `2^64` as in the RFC).
-/

namespace Feedx.Md5

/-- Per-round constants `floor(2^32 * |sin(i+1)|)`. -/
def kTable : List Nat :=
  [0xd76aa478, 0xe8c7b756, 0x242070db, 0xc1bdceee, 0xf57c0faf, 0x4787c62a,
   0xa8304613, 0xfd469501, 0x698098d8, 0x8b44f7af, 0xffff5bb1, 0x895cd7be,
   0x6b901122, 0xfd987193, 0xa679438e, 0x49b40821, 0xf61e2562, 0xc040b340,
   0x265e5a51, 0xe9b6c7aa, 0xd62f105d, 0x2441453, 0xd8a1e681, 0xe7d3fbc8,
   0x21e1cde6, 0xc33707d6, 0xf4d50d87, 0x455a14ed, 0xa9e3e905, 0xfcefa3f8,
   0x676f02d9, 0x8d2a4c8a, 0xfffa3942, 0x8771f681, 0x6d9d6122, 0xfde5380c,
   0xa4beea44, 0x4bdecfa9, 0xf6bb4b60, 0xbebfbc70, 0x289b7ec6, 0xeaa127fa,
   0xd4ef3085, 0x4881d05, 0xd9d4d039, 0xe6db99e5, 0x1fa27cf8, 0xc4ac5665,
   0xf4292244, 0x432aff97, 0xab9423a7, 0xfc93a039, 0x655b59c3, 0x8f0ccc92,
   0xffeff47d, 0x85845dd1, 0x6fa87e4f, 0xfe2ce6e0, 0xa3014314, 0x4e0811a1,
   0xf7537e82, 0xbd3af235, 0x2ad7d2bb, 0xeb86d391]

/-- Per-round rotation amounts. -/
def sTable : List Nat :=
  [7, 12, 17, 22, 7, 12, 17, 22, 7, 12, 17, 22, 7, 12, 17, 22,
   5, 9, 14, 20, 5, 9, 14, 20, 5, 9, 14, 20, 5, 9, 14, 20,
   4, 11, 16, 23, 4, 11, 16, 23, 4, 11, 16, 23, 4, 11, 16, 23,
   6, 10, 15, 21, 6, 10, 15, 21, 6, 10, 15, 21, 6, 10, 15, 21]

/-- 32-bit left rotation. -/
def rotl (x c : Nat) : Nat := ((x <<< c) ||| (x >>> (32 - c))) % 4294967296

/-- 32-bit complement. -/
def not32 (x : Nat) : Nat := x ^^^ 0xffffffff

/-- The four 32-bit state words. -/
structure State where
  a : Nat
  b : Nat
  c : Nat
  d : Nat
  deriving DecidableEq, Repr

/-- One of the 64 steps of the compression function; `m` are the 16 message words. -/
def step (m : List Nat) (s : State) (i : Nat) : State :=
  let (f, g) :=
    if i < 16 then ((s.b &&& s.c) ||| (not32 s.b &&& s.d), i)
    else if i < 32 then ((s.d &&& s.b) ||| (not32 s.d &&& s.c), (5 * i + 1) % 16)
    else if i < 48 then (s.b ^^^ s.c ^^^ s.d, (3 * i + 5) % 16)
    else (s.c ^^^ (s.b ||| not32 s.d), (7 * i) % 16)
  let x := (f + s.a + kTable.getD i 0 + m.getD g 0) % 4294967296
  ⟨s.d, (s.b + rotl x (sTable.getD i 0)) % 4294967296, s.b, s.c⟩

/-- Compression of one 64-byte block given as 16 words. -/
def compress (s : State) (m : List Nat) : State :=
  let r := (List.range 64).foldl (step m) s
  ⟨(s.a + r.a) % 4294967296, (s.b + r.b) % 4294967296, (s.c + r.c) % 4294967296,
    (s.d + r.d) % 4294967296⟩

/-- Little-endian bytes of a 32-bit word. -/
def wordBytes (w : Nat) : List Nat :=
  [w % 256, (w / 256) % 256, (w / 65536) % 256, (w / 16777216) % 256]

/-- Little-endian words of a byte list (length a multiple of 4). -/
def toWords : List Nat → List Nat
  | a :: b :: c :: d :: l => (a + 256 * b + 65536 * c + 16777216 * d) :: toWords l
  | _ => []

/-- Padding: `0x80`, zeros up to 56 modulo 64, then the bit length as 8 little-endian bytes. -/
def pad (bytes : List Nat) : List Nat :=
  let n := bytes.length
  let zeros := (119 - n % 64) % 64
  let bits := (8 * n) % 18446744073709551616
  bytes ++ [0x80] ++ List.replicate zeros 0 ++
    wordBytes (bits % 4294967296) ++ wordBytes (bits / 4294967296)

/-- Groups of 16 words; `fuel` bounds the number of blocks (each consumes at least one word). -/
def blocks : Nat → List Nat → List (List Nat)
  | 0, _ => []
  | _, [] => []
  | fuel + 1, l => l.take 16 :: blocks fuel (l.drop 16)

/-- The 16-byte digest. -/
def digest (bytes : List Nat) : List Nat :=
  let w := toWords (pad bytes)
  let s := (blocks w.length w).foldl compress ⟨0x67452301, 0xefcdab89, 0x98badcfe, 0x10325476⟩
  wordBytes s.a ++ wordBytes s.b ++ wordBytes s.c ++ wordBytes s.d

/-- Lower-case hexadecimal digit. -/
def hexDigit (n : Nat) : Char := "0123456789abcdef".toList.getD n '0'

/-- `bytes.hex()` / `hexdigest()`. -/
def hex (bytes : List Nat) : List Char :=
  bytes.flatMap (fun b => [hexDigit (b / 16), hexDigit (b % 16)])

/-- Value of a lower-case hexadecimal digit. -/
def hexVal (c : Char) : Nat :=
  if c.toNat < 97 then c.toNat - 48 else c.toNat - 87

/-- `int(s, 16)` on lower-case hexadecimal digits. -/
def intBase16 (s : List Char) : Nat := s.foldl (fun acc c => 16 * acc + hexVal c) 0

/-- UTF-8 bytes of a Python string (as its list of code points). -/
def utf8 (s : List Char) : List Nat :=
  s.flatMap (fun c => (String.utf8EncodeChar c).map UInt8.toNat)

/-- `hashlib.md5(s.encode("utf-8")).hexdigest()`. -/
def md5Hex (s : List Char) : List Char := hex (digest (utf8 s))

end Feedx.Md5
