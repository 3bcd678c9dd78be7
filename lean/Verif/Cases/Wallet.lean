import Verif.Props.Wallet
import Verif.Cases.Keys
/-! Every theorem with hypotheses of `Props/Wallet`, applied to concrete arguments that meet them: the master key of test vector 1 of
BIP 32, written on a little-endian machine and read on a big-endian one. -/
namespace Cases
open AddressSpec

example := C89_watch_only false true .little .big true .main m1 kb pb pb pb (aa 128) [] [(0#32, 7#32), (5#32, 8#32)] m1_wf kb_buf pb_buf pb_buf pb_buf
  (by decide +kernel) (by decide)
example := C89_restore false true .little .big true .test m1 kb kb (aa 128) [] [(0x80000000#32, 7#32), (5#32, 8#32)] m1_wf kb_buf kb_buf
  (by decide +kernel)
example := C89_payment false .little .big true .main junk m1.key (aa 20) (aa 44) [] (aa 40) m1_wf.1 (by decide) (by decide +kernel) (by decide +kernel)

end Cases
