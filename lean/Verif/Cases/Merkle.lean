import Verif.Props.Merkle
/-! The theorems of `Props/Merkle` applied to concrete arguments that meet their hypotheses. -/
namespace Cases

/-- Output 32 bytes behind the beginning of three blocks, and before them. -/
example := C104_blocks_on_one_object .little (List.replicate 300 0x11#8) 10 42 3 (by rw [List.length_replicate]; decide) (by rw [List.length_replicate]; decide) (by decide)
example := C104_blocks_on_one_object .big (List.replicate 300 0x11#8) 10 0 3 (by rw [List.length_replicate]; decide) (by rw [List.length_replicate]; decide) (by decide)

/-- Five hashes: a tree of height 3. -/
example := C104_merkle_root .little
  [List.replicate 32 1#8, List.replicate 32 2#8, List.replicate 32 3#8, List.replicate 32 4#8, List.replicate 32 5#8]
  (List.replicate 40 0xEE#8) 3 (by simp) (by decide) (by decide) (by decide)

end Cases
