import Verif.Model.DosExe
import Verif.Spec.Bios
set_option autoImplicit false
/-
What a DOS executable file is, independent of the loader.
-/
namespace RME.Native
open RME

/-- Little-endian word at offset `o` of a file. -/
def wordAt (file : List (BitVec 8)) (o : Nat) : Nat := (file.getD o 0).toNat + 256 * (file.getD (o + 1) 0).toNat

/-- `file` is a DOS executable with entry `cs:ip`, stack `ss:sp` (relative to the load segment), load image `img` and relocation sites
`relocs` (offsets into the image): header words 0 signature, 2 bytes in the last block (0 = all 512), 4 number of 512-byte blocks,
6 number of relocations, 8 header size in paragraphs, 14 SS, 16 SP, 20 IP, 22 CS, 24 offset of the relocation table. -/
structure ExeOf (file : List (BitVec 8)) (cs ip ss sp : BitVec 16) (img : List (BitVec 8)) (relocs : List Nat) : Prop where
  header : 28 ≤ file.length
  sig : wordAt file 0 = 0x5A4D
  entryCs : wordAt file 22 = cs.toNat
  entryIp : wordAt file 20 = ip.toNat
  stackSs : wordAt file 14 = ss.toNat
  stackSp : wordAt file 16 = sp.toNat
  last : wordAt file 2 < 512
  size : 16 * wordAt file 8 + img.length + (if wordAt file 2 = 0 then 0 else 512 - wordAt file 2) = 512 * wordAt file 4
  image : ∀ i (h : i < img.length), file[16 * wordAt file 8 + i]? = some img[i]
  count : relocs.length = wordAt file 6
  table : ∀ i < relocs.length, wordAt file 24 + 4 * i + 4 ≤ file.length
  reloc : ∀ i (h : i < relocs.length), relocs[i] = 16 * wordAt file (wordAt file 24 + 4 * i + 2) + wordAt file (wordAt file 24 + 4 * i)
  inside : ∀ r ∈ relocs, r + 2 ≤ img.length

/-- Add the load segment 0100h to the word at `p`. -/
def addSeg (img : List (BitVec 8)) (p : Nat) : List (BitVec 8) :=
  (img.set p (BitVec.ofNat 8 (wordAt img p + 0x100))).set (p + 1) (BitVec.ofNat 8 ((wordAt img p + 0x100) / 256))

/-- The image after relocation. -/
def relocated (img : List (BitVec 8)) (relocs : List Nat) : List (BitVec 8) := relocs.foldl addSeg img

end RME.Native
