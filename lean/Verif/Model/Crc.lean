import Verif.Model.Py
/-
The X.25 checksum used by the dialect: `x25crc` is imported from pymavlink (HC_dialect.py:13,
`from pymavlink.generator.mavcrc import x25crc`); its `accumulate` is modelled from the published
pymavlink source. It is external code, part of the trusted reading.
-/
namespace NR

/-- One iteration of `x25crc.accumulate` (external pymavlink; used at HC_dialect.py:241-243, 8869):
```
tmp = b ^ (accum & 0xff); tmp = (tmp ^ (tmp<<4)) & 0xFF
accum = (accum>>8) ^ (tmp<<8) ^ (tmp<<3) ^ (tmp>>4)
``` -/
def crcStep (crc : BitVec 16) (b : Byte) : BitVec 16 :=
  let tmp : BitVec 8 := b ^^^ crc.setWidth 8
  let tmp : BitVec 8 := tmp ^^^ (tmp <<< 4)
  let t : BitVec 16 := tmp.setWidth 16
  (crc >>> 8) ^^^ (t <<< 8) ^^^ (t <<< 3) ^^^ (t >>> 4)

/-- `x25crc(buf).crc`: initial value 0xFFFF. -/
def x25 (bs : List Byte) : BitVec 16 := bs.foldl crcStep 0xFFFF

end NR
