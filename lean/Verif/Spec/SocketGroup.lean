import Verif.Model.SocketGroup
import Verif.Spec.SocketCan

/-!
# Specification of filters and of waiting

The kernel's side of `CAN_RAW_FILTER`: `<linux/can.h>` ("struct can_filter: a filter matches when
`<received_can_id> & mask == can_id & mask`; the filter can be inverted (CAN_INV_FILTER bit set in can_id) or it can
filter for error message frames (CAN_ERR_FLAG bit set in mask)"), `net/can/raw.c` and `net/can/af_can.c`.
-/

namespace Uavcan.Spec
open SocketCan

/-- One installed filter lets a message through. Bit 29 of the mask selects error messages (by the error classes), bit 29 of
the identifier inverts the filter. -/
def Passes (f : CanFilter) (rx : BitVec 32) : Prop :=
  if f.can_mask.getLsbD 29 then rx.getLsbD 29 = true ∧ ∃ k, k < 29 ∧ rx.getLsbD k = true ∧ f.can_mask.getLsbD k = true
  else rx.getLsbD 29 = false ∧
    (f.can_id.getLsbD 29 = false ↔
      ∀ k, k < 32 → f.can_mask.getLsbD k = true → rx.getLsbD k = f.can_id.getLsbD k)

/-- The filters the kernel installs: as many as the length in bytes says. -/
def installed (c : SetFilter) : List CanFilter := c.filters.take (c.optlen / 8)

/-- A socket receives a message if one of its filters lets it through. -/
def Receives (c : SetFilter) (rx : BitVec 32) : Prop := ∃ f ∈ installed c, Passes f rx

/-- The kernel accepts (0) only whole filters, and at most 512 of them. -/
def ValidSetFilter (c : SetFilter) (ans : Int) : Prop := ans = 0 → c.optlen % 8 = 0 ∧ c.optlen ≤ 512 * 8

/-- A filter of the library matches an identifier: they agree on those of the 29 identifier bits that the mask selects. -/
def Matches (f : Filter) (id : BitVec 32) : Prop :=
  ∀ k, k < 29 → f.mask.getLsbD k = true → id.getLsbD k = f.id.getLsbD k

/-- How long `ppoll` is asked to wait, in nanoseconds (`man ppoll`; `tv_nsec` must be in 0 … 999999999). -/
def waitNs (r : PollReq) : Option Int :=
  if 0 ≤ r.tv_sec ∧ 0 ≤ r.tv_nsec ∧ r.tv_nsec < 1000000000 then some (r.tv_sec * 1000000000 + r.tv_nsec) else none

/-- An exceptional event (`man poll`): priority data, error, hang-up or bad descriptor. -/
def Exceptional (e : BitVec 16) : Prop :=
  e.getLsbD 1 = true ∨ e.getLsbD 3 = true ∨ e.getLsbD 4 = true ∨ e.getLsbD 5 = true

end Uavcan.Spec
