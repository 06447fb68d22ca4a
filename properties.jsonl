{"id": "C01", "title": "Signed saturating addition is exact clamping", "statement": "For two operands of the same signed integer type, saturating_add(a, b) has defined behaviour and returns the mathematical sum a+b if it is representable, the type's maximum if the sum is too large and the type's minimum if it is too small.", "quantifier": "every signed integer width and every pair of representable operands", "why_tests_cant": "2^128 operand pairs for int64_t; the existing tests sample fewer than twenty and skip 0 + negative", "anchors": ["libuavcan/include/libuavcan/util/math.hpp:saturating_add(SignedType,SignedType)", "libuavcan/include/libuavcan/util/math.hpp:_saturating_add_d", "libuavcan/include/libuavcan/util/math.hpp:_saturating_sub_d"]}
{"id": "C02", "title": "Signed saturating subtraction is exact clamping", "statement": "For two operands of the same signed integer type, saturating_sub(a, b) has defined behaviour and returns a-b clamped to the type's range.", "quantifier": "every signed integer width and every pair of representable operands", "why_tests_cant": "the operand space is 2^128; the only existing test with a zero left operand accepts any result", "anchors": ["libuavcan/include/libuavcan/util/math.hpp:saturating_sub(SignedType,SignedType)", "libuavcan/include/libuavcan/util/math.hpp:_saturating_sub_d"]}
{"id": "C03", "title": "Unsigned saturating addition and subtraction are exact clamping", "statement": "For two operands of the same unsigned integer type (bool included), saturating_add and saturating_sub return the exact sum or difference clamped to [0, max].", "quantifier": "every unsigned width and every pair of representable operands", "why_tests_cant": "the operand space is 2^128 for uint64_t", "anchors": ["libuavcan/include/libuavcan/util/math.hpp:saturating_add(UnsignedType,UnsignedType)", "libuavcan/include/libuavcan/util/math.hpp:saturating_sub(UnsignedType,UnsignedType)"]}
{"id": "C04", "title": "Unsigned-plus-signed saturating addition is exact clamping", "statement": "For an unsigned left operand and a signed right operand, saturating_add(a, b) returns the mathematical a+b clamped to the range of the unsigned type, also when b is negative.", "quantifier": "every pair of widths and every pair of representable operands", "why_tests_cant": "2^128 operand pairs; the existing tests sample the limits only and encode the implementation's value for a negative operand", "anchors": ["libuavcan/include/libuavcan/util/math.hpp:saturating_add(LhsType,RhsType)"]}
{"id": "C05", "title": "Unsigned-minus-signed saturating subtraction is exact clamping", "statement": "For an unsigned left operand and a signed right operand, saturating_sub(a, b) returns the mathematical a-b clamped to the range of the unsigned type, also when b is negative.", "quantifier": "every pair of widths and every pair of representable operands", "why_tests_cant": "2^128 operand pairs", "anchors": ["libuavcan/include/libuavcan/util/math.hpp:saturating_sub(LhsType,RhsType)"]}
{"id": "C06", "title": "Durations and times round-trip and are totally ordered", "statement": "fromMicrosecond followed by toMicrosecond is the identity, the six comparison operators agree with the integer order of the microsecond values (so they form one total order with != the negation of ==), and getMaximum() is greater than or equal to every value.", "quantifier": "every pair of representable durations, and every pair of representable times", "why_tests_cant": "the ordering laws quantify over all 2^128 pairs", "anchors": ["libuavcan/include/libuavcan/time.hpp:duration::Base", "libuavcan/include/libuavcan/time.hpp:time::Base"]}
{"id": "C07", "title": "Duration arithmetic saturates and never wraps", "statement": "For all durations a and b, a+b and a-b (and a+=b, a-=b) are defined and equal the mathematical result clamped to the duration range; in particular a+b = b+a, a-a = 0 and a+0 = a-0 = a.", "quantifier": "every pair of durations", "why_tests_cant": "all pairs of 64-bit values; algebraic laws cannot be sampled", "anchors": ["libuavcan/include/libuavcan/time.hpp:duration::Base::operator+", "libuavcan/include/libuavcan/time.hpp:duration::Base::operator-", "libuavcan/include/libuavcan/time.hpp:duration::Base::operator+=", "libuavcan/include/libuavcan/time.hpp:duration::Base::operator-="]}
{"id": "C08", "title": "Duration negation saturates", "statement": "-d is defined for every duration, equals the mathematical negation unless d is the minimum, in which case it is the maximum; negating twice gives d back for every d except the minimum.", "quantifier": "every duration value of every width", "why_tests_cant": "2^64 values", "anchors": ["libuavcan/include/libuavcan/time.hpp:duration::Base::operator-()"]}
{"id": "C09", "title": "Absolute value of a duration", "statement": "getAbs() is defined for every duration and returns a non-negative duration equal to |d| (saturating for the minimum).", "quantifier": "every duration value", "why_tests_cant": "2^64 values; the one failing value is a single point of the domain", "anchors": ["libuavcan/include/libuavcan/time.hpp:duration::Base::getAbs"]}
{"id": "C10", "title": "Accumulating non-negative durations onto a time is the saturated sum", "statement": "Starting from any time t, adding any sequence of non-negative durations one by one yields exactly min(maximum, t + sum); the clock never goes backwards on the way and once it reaches the maximum it stays there. Subtracting any such sequence yields max(0, t - sum).", "quantifier": "every start time and every finite sequence of non-negative durations of any length", "why_tests_cant": "histories are unbounded", "anchors": ["libuavcan/include/libuavcan/time.hpp:time::Base::operator+", "libuavcan/include/libuavcan/time.hpp:time::Base::operator+=", "libuavcan/include/libuavcan/time.hpp:time::Base::operator-", "libuavcan/include/libuavcan/time.hpp:time::Base::operator-="]}
{"id": "C11", "title": "Time plus or minus a negative duration", "statement": "For every time t and negative duration d, t+d equals t-|d| clamped at 0 and t-d equals t+|d| clamped at the maximum.", "quantifier": "every time and every negative duration", "why_tests_cant": "2^127 pairs; the one existing test of a negative operand sits next to the only value for which the code is right", "anchors": ["libuavcan/include/libuavcan/time.hpp:time::Base::operator+", "libuavcan/include/libuavcan/time.hpp:time::Base::operator-", "libuavcan/include/libuavcan/util/math.hpp:saturating_sub(LhsType,RhsType)"]}
{"id": "C12", "title": "Copy, move and compound assignment of time values", "statement": "Copying leaves the source unchanged and makes the destination equal to it; moving gives the destination the source's old value and resets the source to 0; compound assignment x op= y stores x op y and leaves y unchanged. All of this holds whatever objects alias each other.", "quantifier": "every store of objects, every value and every aliasing of source and destination", "why_tests_cant": "aliasing of every pair of objects over every prior history", "anchors": ["libuavcan/include/libuavcan/time.hpp:duration::Base::operator=", "libuavcan/include/libuavcan/time.hpp:time::Base::operator=", "libuavcan/include/libuavcan/time.hpp:duration::Base::operator+="]}
{"id": "C13", "title": "Length to DLC picks the smallest sufficient CAN FD length", "statement": "On a frame type of MTU 64, for every byte length n up to 64, dlcToLength(lengthToDlc(n)) is the smallest length CAN FD can carry that is at least n; n above 64 saturates to 64.", "quantifier": "every length", "why_tests_cant": "minimality compares every length with every CAN FD length", "anchors": ["libuavcan/include/libuavcan/media/can.hpp:Frame::lengthToDlc", "libuavcan/include/libuavcan/media/can.hpp:Frame::dlcToLength"]}
{"id": "C14", "title": "DLC and length are inverse on CAN FD lengths", "statement": "For every MTU that is a CAN FD length and every DLC whose length fits that MTU, lengthToDlc(dlcToLength(dlc)) = dlc; dlcToLength of a value that is not a DLC is 0; lengthToDlc is monotone in the length.", "quantifier": "every MTU, every DLC value of the underlying type and every length", "why_tests_cant": "the template is instantiated for any MTU; the tests instantiate two", "anchors": ["libuavcan/include/libuavcan/media/can.hpp:Frame::lengthToDlc", "libuavcan/include/libuavcan/media/can.hpp:Frame::dlcToLength"]}
{"id": "C15", "title": "A frame never claims more bytes than its MTU", "statement": "After setDataLength(n), getDataLength() is at most MTUBytes, and it is at least n whenever n is at most MTUBytes.", "quantifier": "every MTU accepted by the template (1..64) and every n", "why_tests_cant": "the tests instantiate MTU 8 and 64 only; the claim is about all 64 instantiations", "anchors": ["libuavcan/include/libuavcan/media/can.hpp:Frame::setDataLength", "libuavcan/include/libuavcan/media/can.hpp:Frame::getDataLength", "libuavcan/include/libuavcan/media/can.hpp:Frame::lengthToDlc"]}
{"id": "C16", "title": "Payload tables leave room for exactly one tail byte", "statement": "For every payload length p a bus type can carry, the table PayloadLengthToFrameLength[p] plus the tail byte is the smallest frame length the bus can carry that holds p bytes and the tail byte.", "quantifier": "every payload length, for CAN 2.0 and CAN FD", "why_tests_cant": "no test reads these tables at all", "anchors": ["libuavcan/include/libuavcan/media/can.hpp:TypeFD::PayloadLengthToFrameLength", "libuavcan/include/libuavcan/media/can.hpp:Type2_0::PayloadLengthToFrameLength", "libuavcan/include/libuavcan/media/can.hpp:TailByteSizeBytes"]}
{"id": "C17", "title": "Frame construction copies exactly the DLC's bytes", "statement": "Constructing a frame from an id, a buffer, a DLC and a timestamp yields a frame with that id, that DLC, that timestamp, whose first getDataLength() bytes are those of the buffer and whose remaining bytes are zero; a null buffer yields DLC 0 and all-zero data. No byte outside the buffer or the frame is touched.", "quantifier": "every MTU, id, DLC value, timestamp, buffer content and buffer length", "why_tests_cant": "contents and lengths are unbounded combinations; overruns need not be visible in a test", "anchors": ["libuavcan/include/libuavcan/media/can.hpp:Frame::Frame(uint32_t,const uint8_t*,FrameDLC,time::Monotonic)"]}
{"id": "C18", "title": "Frame equality is an equivalence on id, DLC and payload", "statement": "a == b holds exactly when the identifiers agree on the 29 id bits and the selected flag bits, the DLCs agree and the first getDataLength() bytes agree; timestamps and bytes past the length do not matter. == is reflexive, symmetric and transitive, and != is its negation.", "quantifier": "every MTU, every flag mask and all triples of frames whose length is within the MTU", "why_tests_cant": "transitivity ranges over triples of frames", "anchors": ["libuavcan/include/libuavcan/media/can.hpp:Frame::operator==", "libuavcan/include/libuavcan/media/can.hpp:Frame::operator!=", "libuavcan/include/libuavcan/media/can.hpp:Frame::MaskIdWithFlags"]}
{"id": "C19", "title": "Frame priority is a strict weak order by 29-bit id", "statement": "a > b (higher priority) holds exactly when a's 29-bit id is numerically smaller; > and < are converse, irreflexive, asymmetric and transitive, incomparability is transitive (so frames can be sorted and queued), flags never influence priority, and equal frames are never ordered.", "quantifier": "every pair and triple of frames", "why_tests_cant": "order laws range over triples of 32-bit ids", "anchors": ["libuavcan/include/libuavcan/media/can.hpp:Frame::priorityHigherThan", "libuavcan/include/libuavcan/media/can.hpp:Frame::priorityLowerThan", "libuavcan/include/libuavcan/media/can.hpp:Frame::operator<", "libuavcan/include/libuavcan/media/can.hpp:Frame::operator>"]}
{"id": "C20", "title": "Frames stay well-formed under every history of operations", "statement": "Whatever sequence of default construction, construction from data, copying, assignment, setDataLength and direct writes to id, data and timestamp a program performs on frames of an MTU that is a CAN FD length (with DLCs that fit the MTU), comparison and length queries never touch memory outside the frame, and a copied frame compares equal to its source.", "quantifier": "every finite sequence of operations on every number of frames", "why_tests_cant": "histories are unbounded", "anchors": ["libuavcan/include/libuavcan/media/can.hpp:Frame", "libuavcan/include/libuavcan/media/can.hpp:Frame::operator=", "libuavcan/include/libuavcan/media/can.hpp:Frame::Frame(const Frame&)"]}
{"id": "C21", "title": "The pool never hands out a block twice", "statement": "In every single-threaded history of allocate and deallocate calls in which only live blocks are returned, allocate never returns a block that is currently live, and distinct live blocks occupy disjoint, in-bounds, maximally aligned byte ranges of at least BlockSize bytes.", "quantifier": "every block count, block size and every finite history of valid calls", "why_tests_cant": "histories are unbounded", "anchors": ["libuavcan/include/libuavcan/platform/memory.hpp:StaticMemoryPool::allocate", "libuavcan/include/libuavcan/platform/memory.hpp:StaticMemoryPool::deallocate", "libuavcan/include/libuavcan/platform/memory.hpp:PoolAllocator"]}
{"id": "C22", "title": "Allocation fails exactly when it must", "statement": "An allocate(size) call fails if and only if size exceeds BlockSize or all NumBlocks blocks are live. A failed call changes nothing.", "quantifier": "every reachable pool state and every size", "why_tests_cant": "needs every history", "anchors": ["libuavcan/include/libuavcan/platform/memory.hpp:StaticMemoryPool::allocate"]}
{"id": "C23", "title": "No block is ever leaked", "statement": "After any valid history the pool can still serve exactly NumBlocks minus the number of live blocks further allocations; a deallocated block is the next one to be handed out (last in, first out).", "quantifier": "every valid history", "why_tests_cant": "leaks show only after unbounded histories", "anchors": ["libuavcan/include/libuavcan/platform/memory.hpp:StaticMemoryPool::allocate", "libuavcan/include/libuavcan/platform/memory.hpp:StaticMemoryPool::deallocate", "libuavcan/include/libuavcan/platform/memory.hpp:StaticMemoryPool::StaticMemoryPool"]}
{"id": "C24", "title": "The pool never touches the contents of live blocks", "statement": "Bytes a client stores in a live block are unchanged by any allocate or deallocate of other blocks, and whatever a client writes into its own live block never disturbs the pool.", "quantifier": "every valid history interleaved with arbitrary client writes to live blocks", "why_tests_cant": "needs all contents and all histories, since link pointers share storage with client data", "anchors": ["libuavcan/include/libuavcan/platform/memory.hpp:StaticMemoryPool::Block"]}
{"id": "C25", "title": "The pool is thread-safe", "statement": "In every interleaving of any number of threads calling allocate and deallocate on live blocks of one pool, no block is ever live twice, no pointer outside the pool is followed, and no block is lost.", "quantifier": "every number of threads and every interleaving of the individual atomic and memory operations, including spurious compare-exchange failures", "why_tests_cant": "the failing schedules need a precise interleaving that tests do not hit", "anchors": ["libuavcan/include/libuavcan/platform/memory.hpp:StaticMemoryPool::allocate", "libuavcan/include/libuavcan/platform/memory.hpp:StaticMemoryPool::deallocate"]}
{"id": "C26", "title": "Concurrent allocate behaves like an atomic stack", "statement": "In every interleaving in which no block is given back while an allocate call holds it as its candidate and no allocate follows the link of a block whose deallocate is still in progress, each allocate and deallocate takes effect atomically, in last-in first-out order, and an allocate running alone finishes.", "quantifier": "every such interleaving, any number of threads and blocks", "why_tests_cant": "interleavings are unbounded", "anchors": ["libuavcan/include/libuavcan/platform/memory.hpp:StaticMemoryPool::allocate", "libuavcan/include/libuavcan/platform/memory.hpp:StaticMemoryPool::deallocate"]}
{"id": "C27", "title": "Pool behaviour does not depend on whether exceptions are enabled", "statement": "For every history the pool's successful results and its state are the same with and without exceptions; a failed call throws std::bad_alloc in one build exactly when it returns nullptr in the other; null is never returned by the throwing build.", "quantifier": "every history of calls in both builds", "why_tests_cant": "requires relating two builds over every history", "anchors": ["libuavcan/include/libuavcan/platform/memory.hpp:StaticMemoryPool::allocate", "libuavcan/include/libuavcan/build_config.hpp:LIBUAVCAN_ENABLE_EXCEPTIONS"]}
{"id": "C28", "title": "allocate(n) provides room for n objects", "statement": "As the STL allocator requirements demand, a successful PoolAllocator<N, B, T>::allocate(n) returns storage for n objects of type T, for every n up to max_size().", "quantifier": "every T that fits a block and every n", "why_tests_cant": "the tests use T = char or a block much larger than needed", "anchors": ["libuavcan/include/libuavcan/platform/memory.hpp:PoolAllocator::allocate", "libuavcan/include/libuavcan/platform/memory.hpp:PoolAllocator::max_size"]}
{"id": "C29", "title": "Allocators with equal parameters are interchangeable and null is harmless", "statement": "All PoolAllocator objects with the same block count and block size - copied, rebound to another element type or created anew - serve from one pool: a block obtained through one may be released through any other, with the same effect. Deallocating nullptr changes nothing.", "quantifier": "every history of calls made through any number of allocator objects", "why_tests_cant": "needs every assignment of calls to allocator objects over every history", "anchors": ["libuavcan/include/libuavcan/platform/memory.hpp:PoolAllocator", "libuavcan/include/libuavcan/platform/memory.hpp:StaticMemoryPool::getReference", "libuavcan/include/libuavcan/platform/memory.hpp:StaticMemoryPool::deallocate"]}
{"id": "C30", "title": "Unaligned-to-aligned bit copy copies the requested bits and nothing else", "statement": "copyBitsUnalignedToAligned(src, offset, dst, len) sets bit i of dst to bit offset+i of src for every i < len, leaves every other bit of dst unchanged and returns len.", "quantifier": "every content, offset and length for which the buffers are large enough", "why_tests_cant": "contents, offsets and lengths are unbounded; the existing multi-byte tests use periodic patterns or pre-rotated bytes that hide cross-byte errors", "anchors": ["libuavcan/include/libuavcan/platform/memory.hpp:copyBitsUnalignedToAligned"]}
{"id": "C31", "title": "Aligned-to-unaligned bit copy copies the requested bits and nothing else", "statement": "copyBitsAlignedToUnaligned(src, dst, offset, len) sets bit offset+i of dst to bit i of src for every i < len, leaves every other bit of dst unchanged and returns len.", "quantifier": "every content, offset and length for which the buffers are large enough", "why_tests_cant": "as above", "anchors": ["libuavcan/include/libuavcan/platform/memory.hpp:copyBitsAlignedToUnaligned"]}
{"id": "C32", "title": "Bit copies stay inside buffers that hold the requested bits", "statement": "If src holds offset+len bits and dst holds len bits (respectively the other way round), neither copy function reads or writes outside the buffers, and both terminate.", "quantifier": "every offset, length and buffer size", "why_tests_cant": "overruns need not be visible in a test", "anchors": ["libuavcan/include/libuavcan/platform/memory.hpp:copyBitsUnalignedToAligned", "libuavcan/include/libuavcan/platform/memory.hpp:copyBitsAlignedToUnaligned"]}
{"id": "C33", "title": "Bit copies with a null buffer or zero length do nothing", "statement": "If either pointer is null or the length is zero, both copy functions return 0 and change nothing.", "quantifier": "every other argument", "why_tests_cant": "all offsets, lengths and contents", "anchors": ["libuavcan/include/libuavcan/platform/memory.hpp:copyBitsUnalignedToAligned", "libuavcan/include/libuavcan/platform/memory.hpp:copyBitsAlignedToUnaligned"]}
{"id": "C34", "title": "The bit count returned by the copies is the number of bits transferred", "statement": "The returned count is a function of offset and length only, and never exceeds the requested length.", "quantifier": "every offset, length and content", "why_tests_cant": "as above", "anchors": ["libuavcan/include/libuavcan/platform/memory.hpp:copyBitsUnalignedToAligned", "libuavcan/include/libuavcan/platform/memory.hpp:copyBitsAlignedToUnaligned"]}
{"id": "C35", "title": "Result predicates partition all results", "statement": "isSuccess(r), !!r and 'the code of r is positive' are equivalent, isFailure(r) and !r are equivalent to each other and to the negation of isSuccess(r), and the eleven result codes are pairwise distinct.", "quantifier": "every result code", "why_tests_cant": "small domain; the laws are the interface every other property is phrased in", "anchors": ["libuavcan/include/libuavcan/libuavcan.hpp:Result", "libuavcan/include/libuavcan/libuavcan.hpp:operator!", "libuavcan/include/libuavcan/libuavcan.hpp:isSuccess", "libuavcan/include/libuavcan/libuavcan.hpp:isFailure"]}
{"id": "C36", "title": "write() reports exactly how many frames were queued", "statement": "InterfaceGroup::write returns Success exactly when all frames were queued, SuccessPartial exactly when some but not all were, BufferFull or Failure exactly when none were, and out_frames_written is the number queued - also for every failing call.", "quantifier": "every interface count, index, frame array, frames_len and every kernel answer", "why_tests_cant": "the kernel answer is adversarial; tests cannot force it", "anchors": ["test/linux/example/media_on_linux/SocketCANInterface.cpp:write", "test/linux/example/media_on_linux/SocketCANInterfaceGroup.cpp:write", "libuavcan/include/libuavcan/media/interfaces.hpp:InterfaceGroup::write"]}
{"id": "C37", "title": "write() puts each frame on the bus unchanged", "statement": "Each queued CAN frame is an extended frame with the 29-bit id of the given frame and carries exactly the given frame's getDataLength() payload bytes.", "quantifier": "every frame content, every earlier traffic on the same interface", "why_tests_cant": "depends on every DLC and on stale buffer contents from every earlier call", "anchors": ["test/linux/example/media_on_linux/SocketCANInterface.cpp:write", "test/linux/example/media_on_linux/SocketCANInterface.cpp:set_message_length"]}
{"id": "C38", "title": "read() delivers received data frames in order and in bounds", "statement": "read reports at most RxFramesLen frames, delivers the received frames it accepts in the order received in the first out_frames_read slots, leaves the other slots untouched, and adds exactly that number to the rx_total statistic.", "quantifier": "every batch of received frames and error frames with complete control messages, and every history", "why_tests_cant": "adversarial kernel input", "anchors": ["test/linux/example/media_on_linux/SocketCANInterface.cpp:read"]}
{"id": "C39", "title": "read() delivers exactly the extended data frames", "statement": "A received frame is delivered exactly when it is an extended-format data frame (not an error, remote or standard frame).", "quantifier": "every 32-bit can_id", "why_tests_cant": "2^32 identifiers in every position of a batch", "anchors": ["test/linux/example/media_on_linux/SocketCANInterface.cpp:read", "libuavcan/include/libuavcan/media/can.hpp:Frame"]}
{"id": "C40", "title": "read() preserves id, payload length, payload and timestamp", "statement": "A delivered frame has the received frame's 29-bit id, its payload length, its payload bytes and the kernel's receive timestamp in microseconds.", "quantifier": "every received frame with any payload length CAN FD allows, and every timestamp", "why_tests_cant": "all lengths, contents and timestamps", "anchors": ["test/linux/example/media_on_linux/SocketCANInterface.cpp:read", "test/linux/example/media_on_linux/SocketCANInterface.cpp:get_message_length"]}
{"id": "C41", "title": "A frame written to a looped-back interface is read back equal", "statement": "If the kernel hands a written frame back unchanged, the frame read compares equal to the frame written.", "quantifier": "every frame", "why_tests_cant": "all ids, DLCs and contents", "anchors": ["test/linux/example/media_on_linux/SocketCANInterface.cpp:write", "test/linux/example/media_on_linux/SocketCANInterface.cpp:read", "test/linux/example/media_on_linux/main.cpp:LoopBackTest"]}
{"id": "C42", "title": "Interface statistics count bus events", "statement": "Each error statistic equals the number of error frames received so far with that error class, rx_total equals the number of frames delivered so far, and rx_dropped equals the number of frames the kernel reports as dropped so far.", "quantifier": "every history of read calls", "why_tests_cant": "histories are unbounded", "anchors": ["test/linux/example/media_on_linux/SocketCANInterface.cpp:read", "test/linux/example/media_on_linux/SocketCANInterface.hpp:Statistics"]}
{"id": "C43", "title": "select() waits for the requested time", "statement": "select(timeout) asks the kernel to wait for exactly the given duration.", "quantifier": "every non-negative timeout", "why_tests_cant": "2^63 values; wall-clock tests cannot resolve a factor hidden in the sub-second part", "anchors": ["test/linux/example/media_on_linux/SocketCANInterfaceGroup.cpp:select", "libuavcan/include/libuavcan/media/interfaces.hpp:InterfaceGroup::select"]}
{"id": "C44", "title": "select() classifies the poll result", "statement": "select returns SuccessTimeout exactly when no event occurred, Failure exactly when the poll failed, SuccessPartial when some interface reported an exceptional event and Success otherwise; write readiness is requested exactly when not ignored.", "quantifier": "every group size and every combination of poll events", "why_tests_cant": "adversarial kernel input", "anchors": ["test/linux/example/media_on_linux/SocketCANInterfaceGroup.cpp:select", "libuavcan/include/libuavcan/media/interfaces.hpp:InterfaceGroup::select"]}
{"id": "C45", "title": "reconfigureFilters applies the filters to every interface", "statement": "reconfigureFilters terminates; it returns success only if the same filter list was installed on every interface of the group in order, and otherwise returns the first error.", "quantifier": "every group size, filter list and kernel answers", "why_tests_cant": "group sizes are unbounded", "anchors": ["test/linux/example/media_on_linux/SocketCANInterfaceGroup.cpp:reconfigureFilters", "test/linux/example/media_on_linux/SocketCANInterfaceGroup.cpp:configureFilters"]}
{"id": "C46", "title": "Installed filters accept exactly the matching extended frames", "statement": "After successful filter configuration an interface receives an extended data frame exactly when some configured filter matches it (id and mask agree on the 29 id bits); with an empty filter list it receives nothing; standard frames are never received; a null filter array with a non-zero length is rejected with BadArgument.", "quantifier": "every filter list and every identifier", "why_tests_cant": "2^32 identifiers times every filter list", "anchors": ["test/linux/example/media_on_linux/SocketCANInterfaceGroup.cpp:configureFilters", "libuavcan/include/libuavcan/media/can.hpp:Frame::Filter"]}
{"id": "C47", "title": "startInterfaceGroup opens what it can and says so", "statement": "startInterfaceGroup terminates and returns Success exactly when every required interface was opened, SuccessPartial when some were and NotFound when none were; the group contains exactly the opened interfaces in the required order.", "quantifier": "every list of required interfaces and every outcome of each open", "why_tests_cant": "every failure pattern over unboundedly many interfaces", "anchors": ["test/linux/example/media_on_linux/SocketCANInterfaceManager.cpp:startInterfaceGroup", "libuavcan/include/libuavcan/media/interfaces.hpp:InterfaceManager::startInterfaceGroup"]}
{"id": "C48", "title": "A failed start leaves no group", "statement": "If startInterfaceGroup fails, out_group is nullptr afterwards.", "quantifier": "every prior value of out_group and every failure", "why_tests_cant": "depends on the prior value of the out parameter", "anchors": ["test/linux/example/media_on_linux/SocketCANInterfaceManager.cpp:startInterfaceGroup", "libuavcan/include/libuavcan/media/interfaces.hpp:InterfaceManager::startInterfaceGroup"]}
{"id": "C49", "title": "Interface indices are dense group positions", "statement": "Every interface in a started group reports as its index its position in the group, so indices form the range 0..count-1 and the name and object obtained through an index belong together.", "quantifier": "every failure pattern of opening interfaces", "why_tests_cant": "needs partial failures", "anchors": ["test/linux/example/media_on_linux/SocketCANInterface.hpp:getInterfaceIndex", "test/linux/example/media_on_linux/SocketCANInterfaceManager.cpp:startInterfaceGroup", "test/linux/example/media_on_linux/SocketCANInterfaceGroup.cpp:getInterfaceName"]}
{"id": "C50", "title": "Socket descriptors are never leaked or closed twice", "statement": "Every socket opened while starting a group is either closed exactly once or owned by exactly one interface of the group; stopping the group closes each owned socket exactly once.", "quantifier": "every failure point of every system call for every required interface", "why_tests_cant": "every combination of failure points", "anchors": ["test/linux/example/media_on_linux/SocketCANInterfaceManager.cpp:openSocket", "test/linux/example/media_on_linux/SocketCANInterfaceManager.cpp:createInterface", "test/linux/example/media_on_linux/SocketCANInterface.cpp:~SocketCANInterface"]}
{"id": "C51", "title": "The loopback test passes exactly when every frame came back", "statement": "The example's loopback run returns Success exactly when, before the time-out, every interface of the group has delivered a frame equal to each of the two test frames; and the run starts only after both test frames were given to the kernel once on every interface.", "quantifier": "every schedule of received frames over every number of interfaces", "why_tests_cant": "schedules are unbounded", "anchors": ["test/linux/example/media_on_linux/main.cpp:LoopBackTest::run_test", "test/linux/example/media_on_linux/main.cpp:LoopBackTest::evaluate", "test/linux/example/media_on_linux/main.cpp:LoopBackTest::isComplete"]}
{"id": "C52", "title": "The example collects every --device argument", "statement": "Parsing the command line is defined for every argument list and, if all arguments are valid and at least one device is named, succeeds with exactly the named devices in order.", "quantifier": "every argument list", "why_tests_cant": "argument lists are unbounded", "anchors": ["test/linux/example/media_on_linux/main.cpp:parse_args"]}
{"id": "C53", "title": "Generated constants have the value given in the DSDL", "statement": "For every DSDL constant with a rational value, the generated C++ constant expression evaluates to that value.", "quantifier": "every rational constant", "why_tests_cant": "all rationals", "anchors": ["libuavcan/include/libuavcan/templates/StructureType.j2"]}
{"id": "C54", "title": "Generated structures contain every field", "statement": "The generated structure has one member per DSDL field, in order.", "quantifier": "every structure definition", "why_tests_cant": "all type definitions", "anchors": ["libuavcan/include/libuavcan/templates/StructureType.j2", "libuavcan/include/libuavcan/templates/ServiceType.j2", "libuavcan/include/libuavcan/templates/UnionType.j2"]}
{"id": "C55", "title": "The format check fails exactly when some file is unformatted", "statement": "The style check returns 0 exactly when the pattern matches at least one file and the formatter proposes no replacement for any of them.", "quantifier": "every list of files and every formatter output", "why_tests_cant": "unbounded file lists and outputs", "anchors": ["test/cmake/modules/clang-format-check.py:_run"]}
{"id": "C56", "title": "Start-up code initialises RAM sections exactly", "statement": "On the target, init_data_bss copies the data and code images byte for byte, zeroes exactly the bss section, copies the vector table only when it moves, and leaves all other memory unchanged.", "quantifier": "every memory content and every non-overlapping section layout", "why_tests_cant": "all layouts and contents", "anchors": ["test/ontarget/S32K148EVB/Project_Settings/Startup_Code/startup.c:init_data_bss"]}
{"id": "C57", "title": "The on-target newlib stubs honour their POSIX contracts", "statement": "_write transmits the buffer's bytes in order and returns the number of bytes written; getcwd never writes beyond the buffer; failing stubs set errno and return -1.", "quantifier": "every buffer and length", "why_tests_cant": "all lengths and contents", "anchors": ["test/ontarget/S32K148EVB/src/test_sys.c", "test/ontarget/S32K148EVB/src/LPUART.c"]}
{"id": "C58", "title": "The reported core clock follows the clock registers", "statement": "After SystemCoreClockUpdate the variable SystemCoreClock equals the frequency selected by the clock registers divided by the core divider (rounded down), without intermediate overflow and without division by zero; if the source is not a valid one it is unchanged.", "quantifier": "every 32-bit value of each clock register", "why_tests_cant": "2^128 register combinations", "anchors": ["test/ontarget/S32K148EVB/Project_Settings/Startup_Code/system_S32K148.c:SystemCoreClockUpdate"]}
{"id": "C59", "title": "The example exits with 0 exactly when every named device passed", "statement": "Given a valid command line, the example's main returns, with exit status 0 exactly when every named device could be opened, took a test frame and delivered both test frames before the time-out.", "quantifier": "every list of devices, every behaviour of the system calls and every schedule of frames", "why_tests_cant": "schedules and device lists are unbounded", "anchors": ["test/linux/example/media_on_linux/main.cpp:main", "test/linux/example/media_on_linux/main.cpp:LoopBackTest::start_test"]}
{"id": "C60", "title": "The example closes every socket it opens", "statement": "Started with standard input open, whenever the example exits it has closed every socket it opened, exactly once, and no other descriptor, and uses no socket after closing it.", "quantifier": "every argument list and every behaviour of the system calls", "why_tests_cant": "all failure patterns over unboundedly many devices", "anchors": ["test/linux/example/media_on_linux/main.cpp:main", "test/linux/example/media_on_linux/SocketCANInterfaceManager.cpp:startInterfaceGroup", "test/linux/example/media_on_linux/SocketCANInterface.cpp:~SocketCANInterface"]}
{"id": "C61", "title": "Every program the linker script accepts starts with its sections initialised", "statement": "For every set of sections the linker script accepts, the layout has no overlaps, the vector table in RAM is word aligned and large enough, heap and stack are disjoint from each other and from all sections, and after init_data_bss every variable has its initial value, every function placed in RAM its code, every zero-initialised variable is zero, VTOR points at the interrupt vectors, and flash and stack are untouched.", "quantifier": "all section sizes and power-of-two alignments, both vector table placements, every prior memory content", "why_tests_cant": "the layouts are unbounded in number and the interplay of script and start-up code is only seen on the target", "anchors": ["test/ontarget/S32K148EVB/Project_Settings/Linker_Files/S32K1xx_flash.ld", "test/ontarget/S32K148EVB/Project_Settings/Startup_Code/startup.c:init_data_bss"]}
{"id": "C62", "title": "What is loaded lies within flash", "statement": "If the linker accepts a program, the initial values of its data and its RAM functions lie within the flash memory.", "quantifier": "every set of sections", "why_tests_cant": "only a program close to the size of the flash would show it", "anchors": ["test/ontarget/S32K148EVB/Project_Settings/Linker_Files/S32K1xx_flash.ld"]}
{"id": "C63", "title": "The clock set-up gives 80 MHz and SystemCoreClock says so", "statement": "After SPLL_init_160MHz and NormalRUNmode_80MHz have returned, SystemCoreClockUpdate sets SystemCoreClock to 80 MHz; the PLL is configured only while it is disabled and enabled last.", "quantifier": "every prior register content with another clock source selected, every sequence of status register values", "why_tests_cant": "register contents and hardware timing are not under the control of a test", "anchors": ["test/ontarget/S32K148EVB/src/clocks_and_modes.c:SPLL_init_160MHz", "test/ontarget/S32K148EVB/src/clocks_and_modes.c:NormalRUNmode_80MHz", "test/ontarget/S32K148EVB/Project_Settings/Startup_Code/system_S32K148.c:SystemCoreClockUpdate"]}
{"id": "C64", "title": "The serial port helpers transfer exactly the given bytes", "statement": "LPUART1_transmit_string sends exactly the characters before the NUL, in order; LPUART1_receive_char reads a byte once, directly after the receiver reported one; LPUART1_receive_and_echo_char sends back the byte received followed by line feed and carriage return; no byte is given to the transmitter while it is full.", "quantifier": "every string, every sequence of status register values", "why_tests_cant": "hardware timing is not under the control of a test", "anchors": ["test/ontarget/S32K148EVB/src/LPUART.c"]}
{"id": "C65", "title": "Generated headers can be included together", "statement": "Whatever generated headers a source file includes, and however often, each of the types is declared, exactly once.", "quantifier": "every list of headers", "why_tests_cant": "all combinations of types and versions", "anchors": ["libuavcan/include/libuavcan/templates/Header.j2"]}
{"id": "C66", "title": "Every interface of a started group is configured as asked", "statement": "When startInterfaceGroup succeeds, exactly the wanted settings were made on the socket of each interface of the group (CAN FD and own messages as the manager was told, bound to the network interface of its name, timestamps, drop counts, error messages, the filters given), and the kernel accepted all of them.", "quantifier": "every list of interfaces, filter list and kernel answers, also while an older group is replaced", "why_tests_cant": "needs every combination of refused settings over unboundedly many interfaces", "anchors": ["test/linux/example/media_on_linux/SocketCANInterfaceManager.cpp:openSocket", "test/linux/example/media_on_linux/SocketCANInterfaceManager.cpp:createInterface", "test/linux/example/media_on_linux/SocketCANInterfaceManager.cpp:startInterfaceGroup"]}
{"id": "C67", "title": "A group receives only frames that match its filters", "statement": "Whatever frames arrive while a group is started and afterwards, every extended data frame received by one of its interfaces matches one of the filters the group was started with, and frames that match are received.", "quantifier": "every interleaving of arriving frames with the system calls of the start", "why_tests_cant": "the timing of arriving frames is not under the control of a test", "anchors": ["test/linux/example/media_on_linux/SocketCANInterfaceManager.cpp:openSocket", "test/linux/example/media_on_linux/SocketCANInterfaceManager.cpp:createInterface", "test/linux/example/media_on_linux/SocketCANInterfaceGroup.cpp:configureFilters"]}
{"id": "C68", "title": "After reconfigureFilters only frames matching the new filters are received", "statement": "Once reconfigureFilters has returned success, every extended data frame the application receives from the group matches one of the new filters, and frames that arrive and match are received.", "quantifier": "every history of the sockets before, every interleaving of arriving frames", "why_tests_cant": "histories and timing are unbounded", "anchors": ["test/linux/example/media_on_linux/SocketCANInterfaceGroup.cpp:reconfigureFilters", "test/linux/example/media_on_linux/SocketCANInterfaceGroup.cpp:configureFilters"]}
{"id": "C69", "title": "Every received frame carries its own time of arrival", "statement": "On a socket whose messages the kernel stamps, every frame a read returns carries the time at which its own message arrived (0 on a socket without stamps), whatever was sent and received with the same buffers before; no byte outside a control buffer and no byte the kernel did not write is used.", "quantifier": "every history of reads and writes, every content of the message headers' buffers before, every batch of messages", "why_tests_cant": "the buffers and header fields are shared by all reads and writes; what they hold depends on the whole history", "anchors": ["test/linux/example/media_on_linux/SocketCANInterface.cpp:read", "test/linux/example/media_on_linux/SocketCANInterface.cpp:SocketCANInterface", "test/linux/example/media_on_linux/SocketCANInterface.hpp:ControlSize"]}
{"id": "C70", "title": "rx_dropped is the number of frames the kernel dropped", "statement": "On a socket which reports dropped frames, after any history of reads and writes, rx_dropped equals the number of frames the kernel had dropped when the last message arrived.", "quantifier": "every history of reads and writes and every sequence of drop counts, with and without time stamps", "why_tests_cant": "overflows of the kernel's queue are not under the control of a test", "anchors": ["test/linux/example/media_on_linux/SocketCANInterface.cpp:read", "test/linux/example/media_on_linux/SocketCANInterface.hpp:ControlSize"]}
{"id": "C71", "title": "A write hands the kernel frames only", "statement": "The messages a write passes to the kernel carry no control data, so that what is sent does not depend on what was received before.", "quantifier": "every history of reads and writes before", "why_tests_cant": "whether left-over control data does harm depends on history and kernel version", "anchors": ["test/linux/example/media_on_linux/SocketCANInterface.cpp:write", "test/linux/example/media_on_linux/SocketCANInterface.cpp:SocketCANInterface"]}
{"id": "C72", "title": "The program starts with everything initialised", "statement": "From reset on, whatever RAM and registers contain, the reset code first runs the constructors of static variables, with every section initialised, the stack empty and aligned, the floating point unit usable and interrupts masked; then, once they have returned, it unmasks interrupts and runs main once; if main returns the processor stays in an endless loop.", "quantifier": "every program the linker accepts, every content of RAM and registers at reset, every behaviour of constructors and main", "why_tests_cant": "start-up runs before any test can observe it, and depends on the layout of each program", "anchors": ["test/ontarget/S32K148EVB/Project_Settings/Startup_Code/startup_S32K148.S:Reset_Handler", "test/ontarget/S32K148EVB/Project_Settings/Startup_Code/system_S32K148.c:SystemInit"]}
{"id": "C73", "title": "Every interrupt enters its own handler", "statement": "Once start-up has run, every exception of the core and every interrupt listed in IRQn_Type enters the program's function of the corresponding name if there is one, and otherwise the endless loop DefaultISR; the vector table is aligned for VTOR; without handlers other than those of main.cpp every exception ends in an endless loop.", "quantifier": "every program the linker accepts, every set of handlers it defines, all exception numbers", "why_tests_cant": "most interrupts cannot be raised in a test, and a wrong entry shows only when one is", "anchors": ["test/ontarget/S32K148EVB/Project_Settings/Startup_Code/startup_S32K148.S:__isr_vector", "test/ontarget/S32K148EVB/include/S32K148.h:IRQn_Type", "test/ontarget/S32K148EVB/Project_Settings/Startup_Code/startup.c:init_data_bss"]}
{"id": "C74", "title": "The watchdog never resets the tests", "statement": "The watchdog is off before any code of the program runs, and after main's WDOG_disable it is off for good, whatever is written to it.", "quantifier": "every later sequence of accesses to the watchdog", "why_tests_cant": "the watchdog's state cannot be observed other than by waiting for a reset", "anchors": ["test/ontarget/S32K148EVB/Project_Settings/Startup_Code/system_S32K148.c:SystemInit", "test/ontarget/S32K148EVB/src/main.cpp:WDOG_disable"]}
{"id": "C75", "title": "A software reset is requested validly", "statement": "SystemSoftwareReset writes the key without which the processor ignores the write, requests a reset, and keeps all other settings of the register.", "quantifier": "every value of the register", "why_tests_cant": "the test would not survive it", "anchors": ["test/ontarget/S32K148EVB/Project_Settings/Startup_Code/system_S32K148.c:SystemSoftwareReset"]}
{"id": "C76", "title": "A terminal understands the test program", "statement": "After the set-up in main a terminal at 115200 baud (the rate the CI uses), 8 data bits, no parity, 1 stop bit, on PTC6 and PTC7 reads exactly the bytes the program sends, and the program exactly those the terminal sends.", "quantifier": "every content of the registers before, every sequence of bytes with every timing, every delay in seeing an edge up to a sixteenth of a bit", "why_tests_cant": "the baud rate is 0.6 per cent off and depends on registers set elsewhere; a test sees one terminal and one reset state", "anchors": ["test/ontarget/S32K148EVB/src/LPUART.c:LPUART1_init", "test/ontarget/S32K148EVB/src/main.cpp:PORT_init", "test/ontarget/S32K148EVB/src/clocks_and_modes.c:NormalRUNmode_80MHz"]}
{"id": "C77", "title": "Peripherals are used only while they are clocked", "statement": "main accesses PORTC and LPUART1 only while their clock gates are open, and changes the source of a clock only while its gate is closed.", "quantifier": "every state before, every behaviour of the tests and of the terminal, any number of rounds of the last loop", "why_tests_cant": "an access without clock is a bus fault and ends the test; whether there is one depends on what ran before", "anchors": ["test/ontarget/S32K148EVB/src/main.cpp:main", "test/ontarget/S32K148EVB/src/main.cpp:PORT_init", "test/ontarget/S32K148EVB/src/LPUART.c:LPUART1_init"]}
{"id": "C78", "title": "The transcript of a test run is complete and tells the result", "statement": "What the program sends is the greeting, everything the tests print, and then for each character received the result (0 or 1), the character, and a line end; it does so for ever if the other end goes on.", "quantifier": "every output and result of the tests, every sequence of characters received, any number of rounds, every timing of the hardware", "why_tests_cant": "the loop has no end; a test sees finitely many rounds at one speed", "anchors": ["test/ontarget/S32K148EVB/src/main.cpp:main", "test/ontarget/S32K148EVB/src/LPUART.c:LPUART1_transmit_string", "test/ontarget/S32K148EVB/src/LPUART.c:LPUART1_receive_and_echo_char", "test/ontarget/S32K148EVB/src/test_sys.c:_write"]}
{"id": "C79", "title": "Clocks run at the documented frequencies", "statement": "While the tests run, core, bus and flash run at the frequencies given in main.cpp (80, 40, 20 MHz), and SystemCoreClock is the frequency of the core.", "quantifier": "every content of the registers before with the PLL not selected, every sequence of values of the status registers", "why_tests_cant": "frequencies cannot be observed by the program itself", "anchors": ["test/ontarget/S32K148EVB/src/main.cpp:main", "test/ontarget/S32K148EVB/src/clocks_and_modes.c", "test/ontarget/S32K148EVB/Project_Settings/Startup_Code/system_S32K148.c:SystemCoreClock"]}
{"id": "C80", "title": "Clocks are set up in order", "statement": "A clock is started only once the clock it is made from is valid, selected only once it is valid itself, and configured only while it is off; a locked register is not written.", "quantifier": "every content of the registers before, every sequence of values of the status registers", "why_tests_cant": "a violation shows as a rare hang or glitch, if at all", "anchors": ["test/ontarget/S32K148EVB/src/clocks_and_modes.c:SOSC_init_8MHz", "test/ontarget/S32K148EVB/src/clocks_and_modes.c:SPLL_init_160MHz", "test/ontarget/S32K148EVB/src/clocks_and_modes.c:NormalRUNmode_80MHz", "test/ontarget/S32K148EVB/src/main.cpp:main"]}
{"id": "C81", "title": "copyBitsAlignedToUnaligned shifts an array to the left", "statement": "For arrays of m bytes, read most significant byte first as the diagrams of the validation suite do, and an offset below 8m, copyBitsAlignedToUnaligned with length 8m skips offset/8 bytes of both arrays and makes the rest of the destination the rest of the source shifted left by offset%8 bits, keeping the destination's lowest offset%8 bits; it returns 8m - offset and changes no other byte.", "quantifier": "all arrays, all whole-byte lengths, all offsets below the length", "why_tests_cant": "the suite has arrays of two bytes with repeating patterns and offsets 1 and 9 only", "anchors": ["libuavcan/include/libuavcan/platform/memory.hpp:copyBitsAlignedToUnaligned", "libuavcan_validation_suite/include/lvs/platform/memory_copy.hpp:TwoByteAlignedIntoTwoUnaligned"]}
{"id": "C82", "title": "copyBitsUnalignedToAligned shifts an array to the right", "statement": "For arrays of m bytes, read most significant byte first as the diagrams of the validation suite do, and an offset below 8m, copyBitsUnalignedToAligned with length 8m skips offset/8 bytes of both arrays and makes the rest of the destination the rest of the source shifted right by offset%8 bits, keeping the destination's highest offset%8 bits; it returns 8m - offset and changes no other byte.", "quantifier": "all arrays, all whole-byte lengths, all offsets below the length", "why_tests_cant": "in the suite all bytes of a source agree in the bits that are moved on, so that taking them from the wrong byte goes unnoticed", "anchors": ["libuavcan/include/libuavcan/platform/memory.hpp:copyBitsUnalignedToAligned", "libuavcan_validation_suite/include/lvs/platform/memory_copy.hpp:TwoByteUnalignedIntoTwoAligned"]}
{"id": "C83", "title": "The library passes its validation suite", "statement": "Every test of the validation suite for bit copies, pool allocators, durations, times and CAN frames passes for the library's own implementation, with every parameter the classes admit.", "quantifier": "all tests, run in any order and any number of times; every pool (number and size of blocks, with and without exceptions, with interference of other threads and after any history that gave back all blocks); every width of the time types of at least 8 bits; every MTU up to 64", "why_tests_cant": "the tests are instantiated with few parameters (two pools, one time type, one MTU); that they pass with others is not tested", "anchors": ["libuavcan_validation_suite/include/lvs/platform/memory_copy.hpp", "libuavcan_validation_suite/include/lvs/platform/memory.hpp", "libuavcan_validation_suite/include/lvs/time.hpp", "libuavcan_validation_suite/include/lvs/media/can_frame.hpp"]}
{"id": "C84", "title": "What passes the validation suite is right", "statement": "A pair of bit copies that passes the suite copies bits correctly for all arguments; an allocator that passes hands out blocks that are not in use, as long as there are any and the request fits, and takes back all of them.", "quantifier": "every implementation of the two interfaces, every allocator with any internal state", "why_tests_cant": "the claim is about all implementations, of which a test sees one", "anchors": ["libuavcan_validation_suite/include/lvs/platform/memory_copy.hpp", "libuavcan_validation_suite/include/lvs/platform/memory.hpp"]}
{"id": "C85", "title": "What is right passes the validation suite", "statement": "Every pair of bit copies that copies correctly (within a byte as documented, for whole arrays as in the suite's diagrams) and every allocator that hands out and takes back blocks correctly passes all tests of the suite, in any order and any number of times.", "quantifier": "every implementation of the two interfaces, every allocator with any internal state, every sequence of the tests", "why_tests_cant": "the claim is about all implementations, of which a test sees one", "anchors": ["libuavcan_validation_suite/include/lvs/platform/memory_copy.hpp", "libuavcan_validation_suite/include/lvs/platform/memory.hpp"]}
{"id": "C86", "title": "The unit tests of saturating arithmetic accept exact arithmetic", "statement": "At every pair of types the tests admit, operations that return the exact result, or the closest value of the type, pass all tests in test_util_math.cpp; so do the library's.", "quantifier": "every implementation, every width (and bool), all three combinations of signedness", "why_tests_cant": "the tests themselves are in question; they run against one implementation at nine pairs of types", "anchors": ["test/native/test_util_math.cpp", "libuavcan/include/libuavcan/util/math.hpp:saturating_add", "libuavcan/include/libuavcan/util/math.hpp:saturating_sub"]}
{"id": "C87", "title": "A vector on the pool allocator is a vector", "statement": "A std::vector whose allocator is PoolAllocator<NumBlocks, BlockSize, T>, with two free blocks in the pool, answers every sequence of calls like a list of at most BlockSize elements (asking for more is refused with an exception and changes nothing), never touches memory of other users of the pool, and its destructor gives back all it took.", "quantifier": "every pool, every element type the allocator admits, every growth policy the standard allows, every history of other users, every sequence of calls", "why_tests_cant": "the validation suite pushes six chars into one pool; limits of size and interference with other users are not tried", "anchors": ["libuavcan/include/libuavcan/platform/memory.hpp:PoolAllocator", "libuavcan_validation_suite/include/lvs/platform/memory.hpp:PoolAllocatorVectorTest"]}
{"id": "C88", "title": "An unordered_map on the pool allocator is a map", "statement": "A std::unordered_map whose allocator is PoolAllocator<NumBlocks, BlockSize, T> answers every sequence of calls like a finite map, as long as the pool has free blocks and the allocator accepts every request of the map; it never touches memory of other users of the pool, and its destructor gives back all it took.", "quantifier": "every pool, every key and value type whose nodes fit a block, every rehash policy, every history of other users, every sequence of calls", "why_tests_cant": "the validation suite inserts three elements; whether memory next to the bucket array is destroyed is not looked at", "anchors": ["libuavcan/include/libuavcan/platform/memory.hpp:PoolAllocator", "libuavcan_validation_suite/include/lvs/platform/memory.hpp:PoolAllocatorUnorderedMapTest"]}
{"id": "C89", "title": "The container tests pass on every allocator meeting their requirements", "statement": "On every pool allocator with at least MinimumBlockCount blocks of at least MinimumBlockSize bytes, as stated in the validation suite, the tests of std::vector and std::unordered_map pass and leave the pool as they found it.", "quantifier": "every pool meeting the requirements, 32-bit and 64-bit machines, with and without exceptions, libraries which honour shrink_to_fit or not", "why_tests_cant": "the native tests run with exactly the minimum, on one machine and one library", "anchors": ["libuavcan_validation_suite/include/lvs/platform/memory.hpp:PoolAllocatorVectorTestRequirements", "libuavcan_validation_suite/include/lvs/platform/memory.hpp:PoolAllocatorUnorderedMapTestRequirements", "test/native/test_platform_memory_poolallocator_unordered_map.cpp"]}
{"id": "C90", "title": "Invalid template arguments do not compile", "statement": "A program that makes a value of a class derived from duration::Base or time::Base compiles only if the class adds no storage, its microsecond type is a signed (unsigned for times) integer, and the duration of a time has the same size; with such classes every program in scope compiles. Likewise frames hold at most 64 bytes, groups read and write at least one frame, and a pool has at least one block that holds a value.", "quantifier": "every class with any members over any type, every program over its operations, every template argument of frames, groups and pools", "why_tests_cant": "a compile test shows one class being rejected; which classes slip through because an assertion sits in one constructor or a type trait admits more is not visible in tests", "anchors": ["libuavcan/include/libuavcan/time.hpp:Base", "libuavcan/include/libuavcan/util/math.hpp:saturating_add", "libuavcan/include/libuavcan/media/can.hpp:Frame", "libuavcan/include/libuavcan/media/interfaces.hpp:InterfaceGroup", "libuavcan/include/libuavcan/platform/memory.hpp:PoolAllocator"]}
{"id": "C91", "title": "The compile tests guard the static assertions", "statement": "The compile tests pass, and deleting any one of the assertions about template arguments makes some compile test fail.", "quantifier": "every subset of the assertions, every compiler (with or without arrays of no elements, with or without errors for unused members)", "why_tests_cant": "the tests themselves are in question: a test that expects the build to fail passes whatever made it fail", "anchors": ["test/compile/compile_tests.cmake", "test/compile/test_time_001.cpp", "test/compile/test_media_interfaces_001.cpp", "test/compile/test_media_can_001.cpp", "libuavcan/include/libuavcan/time.hpp:Base", "libuavcan/include/libuavcan/platform/memory.hpp:PoolAllocator"]}
{"id": "C92", "title": "Build options take effect", "statement": "An option given to the build (LIBUAVCAN_ENABLE_EXCEPTIONS, LIBUAVCAN_INTROSPECTION_ENABLE_ASSERT, LIBUAVCAN_INTROSPECTION_TRACE_ENABLE, CMAKE_CXX_FLAGS) takes effect; without options exactly the debug builds trace and assert.", "quantifier": "every combination of options and their values, every build type, every flag set", "why_tests_cant": "the tests are built in two configurations without options; that an option is overridden or ignored shows in no test", "anchors": ["test/cmake/common.cmake:apply_flag_set", "libuavcan/include/libuavcan/introspection.hpp:LIBUAVCAN_ASSERT", "libuavcan/include/libuavcan/build_config.hpp:LIBUAVCAN_ENABLE_EXCEPTIONS"]}
{"id": "C93", "title": "The pool throws exactly if the program is compiled with exceptions", "statement": "Unless LIBUAVCAN_ENABLE_EXCEPTIONS is given, the pool allocator reports failure by std::bad_alloc if exceptions are enabled by the compiler's flags and by a null pointer if not; the headers accept C++11, C++14 and C++17.", "quantifier": "every list of compiler flags, every compiler (exceptions on or off by default, with or without feature macros), every build type, every value of __cplusplus", "why_tests_cant": "there are four flag sets in the repository, and tests run with two of them", "anchors": ["libuavcan/include/libuavcan/build_config.hpp:LIBUAVCAN_ENABLE_EXCEPTIONS", "test/cmake/common.cmake:apply_flag_set", "test/cmake/compiler_flag_sets/native_common.cmake", "libuavcan/include/libuavcan/platform/memory.hpp:allocate"]}
{"id": "C94", "title": "Build functions pass on their arguments", "statement": "create_dsdl_target tells the code generator of every lookup directory it is given; create_apply_style_target and define_native_example use all files they are given, and the example is linked with the generated types.", "quantifier": "every list of arguments", "why_tests_cant": "the build files are exercised only by the calls in the repository, none of which gives a lookup directory", "anchors": ["test/cmake/modules/Findnnvg.cmake:create_dsdl_target", "test/cmake/modules/Findclangformat.cmake:create_apply_style_target", "test/linux/tests.cmake:define_native_example"]}
{"id": "C95", "title": "A green pipeline covers every configuration", "statement": "If the pipeline of the build server is green, the tests passed with GCC, with GCC and exceptions, and with Clang, the compile tests passed, the Linux example and the firmware were built, and the firmware just built was tested on the board.", "quantifier": "every outcome of every command of every script, every value of the environment variables", "why_tests_cant": "the build server is what runs the tests; whether it runs them all is not a test", "anchors": [".buildkite/pipeline.yml", "test/ci/native-gcc-build-and-test.sh", "test/ci/native-gcc-build-and-test-exceptions.sh", "test/ci/native-clang-build-and-test.sh", "test/ci/linux-build.sh", "test/ci/ontarget-s32k-build.sh", "test/ci/ontarget-s32k-test.sh"]}
{"id": "C96", "title": "Every generated header compiles", "statement": "The header generated for a valid DSDL definition is accepted by a C++11 compiler by itself.", "quantifier": "every message, union and service definition: every namespace, name, list of constants and fields", "why_tests_cant": "the generated headers are not tested; of the definitions of other users none can be", "anchors": ["libuavcan/include/libuavcan/templates/Header.j2", "libuavcan/include/libuavcan/templates/StructureType.j2", "libuavcan/include/libuavcan/templates/UnionType.j2", "libuavcan/include/libuavcan/templates/ServiceType.j2"]}
{"id": "C97", "title": "The pool has no data races", "statement": "The pool allocator can be used from several threads: as long as every block is accessed only by the thread that owns it, no two conflicting non-atomic accesses to a block, by the pool or by a client, are unordered by happens-before.", "quantifier": "every number of threads, every interleaving of allocate, deallocate, uses of blocks, hand-overs and synchronization by the clients, every pool size", "why_tests_cant": "a data race is undefined behaviour whatever is observed; on x86 and on a single-core target a racy program passes its tests", "anchors": ["libuavcan/include/libuavcan/platform/memory.hpp:allocate", "libuavcan/include/libuavcan/platform/memory.hpp:deallocate"]}
{"id": "C98", "title": "Control data is used only if it is there", "statement": "read() of the SocketCAN example has defined behaviour for all control data that fits the buffer, gives each frame the time of its last complete SO_TIMESTAMP message (none: zero) and adds to rx_dropped exactly the complete SO_RXQ_OVFL counts; control messages that are too short, of other types or levels change nothing.", "quantifier": "every batch of one to four messages, every sequence of control messages (any level, type, length, padding) in each buffer, every earlier content of the buffer", "why_tests_cant": "a test sees the control messages of the kernel it runs on; short or empty messages, and stale bytes behind them, need another kernel or a truncated buffer, and reading behind the buffer is not observable", "anchors": ["test/linux/example/media_on_linux/SocketCANInterface.cpp:SocketCANInterface::read", "test/linux/example/media_on_linux/SocketCANInterface.hpp:ControlSize"]}
{"id": "C99", "title": "What is packed can be unpacked", "statement": "Bits written with copyBitsAlignedToUnaligned at some offset and read back with copyBitsUnalignedToAligned from the same offset are the bits that were written.", "quantifier": "every offset and length, every content of source, packed buffer and destination, as long as the buffers hold the bits involved", "why_tests_cant": "the suite tests each function alone, at a few offsets; whether the two fit together for every offset, length and content, and whether their faults cancel out, takes a proof", "anchors": ["libuavcan/include/libuavcan/platform/memory.hpp:copyBitsAlignedToUnaligned", "libuavcan/include/libuavcan/platform/memory.hpp:copyBitsUnalignedToAligned"]}
{"id": "C100", "title": "Registers and fields are where the header says", "statement": "For every field of every register of the S32K148 header, the macros write and read exactly the bits of the field: F(x) is x cut to the field's width at its place, mask and shift read it back, writing it changes no other field and no bit outside the register. Every documented offset and array distance is the one the compiler gives; registers of different peripherals do not overlap and are aligned. The fields read by the start-up code and tests are those named.", "quantifier": "every peripheral, register and field of the header; every register content and every value written", "why_tests_cant": "nothing in the repository runs the on-target code without a board, and a wrong mask in one of 2358 fields shows only when that field is used with the value it cuts off", "anchors": ["test/ontarget/S32K148EVB/include/S32K148.h", "test/ontarget/S32K148EVB/Project_Settings/Startup_Code/system_S32K148.c:SystemCoreClockUpdate", "test/ontarget/S32K148EVB/src/LPUART.c:LPUART1_transmit_char"]}
{"id": "C101", "title": "A field holds what was set", "statement": "After R |= F(x), as the on-target code uses it for pins, clocks and dividers, field F of register R holds x.", "quantifier": "every field of every register of the header, every value set, every content of the register before", "why_tests_cant": "on a board after power-on the registers hold their reset values; what is there after a debugger, boot loader or warm start differs and is not tested", "anchors": ["test/ontarget/S32K148EVB/include/S32K148.h", "test/ontarget/S32K148EVB/src/main.cpp:PORT_init", "test/ontarget/S32K148EVB/src/LPUART.c:LPUART1_init", "test/ontarget/S32K148EVB/src/clocks_and_modes.c:SPLL_init_160MHz"]}
{"id": "C102", "title": "Bits can be copied within one buffer", "statement": "copyBitsUnalignedToAligned and copyBitsAlignedToUnaligned, which do not ask for separate buffers, do the same when source and destination overlap as when the source is a separate copy: same count, same bytes everywhere.", "quantifier": "every position of source and destination in one array, every offset and length, every content, every array that contains the bytes accessed", "why_tests_cant": "the suite calls the functions with separate buffers only; overlap gives wrong bytes without any error, and which overlaps are harmless depends on positions, offset and length together", "anchors": ["libuavcan/include/libuavcan/platform/memory.hpp:copyBitsAlignedToUnaligned", "libuavcan/include/libuavcan/platform/memory.hpp:copyBitsUnalignedToAligned"]}
{"id": "C103", "title": "Reading and writing do not block", "statement": "read() and write() of the SocketCAN example, documented as non-blocking, return without waiting for messages to arrive or to be transmitted; if the send buffer is full, write() says so (BufferFull, or SuccessPartial with the number of frames that were taken).", "quantifier": "every state of the interface, every number of frames, every room and content of the socket's send queue, every time course of transmission, every receive queue", "why_tests_cant": "a test needs a bus that is jammed or without a second node; on a virtual bus frames leave the queue at once and write never waits", "anchors": ["test/linux/example/media_on_linux/SocketCANInterface.cpp:SocketCANInterface::write", "test/linux/example/media_on_linux/SocketCANInterface.cpp:SocketCANInterface::read", "test/linux/example/media_on_linux/SocketCANInterfaceManager.cpp:SocketCANInterfaceManager::openSocket", "libuavcan/include/libuavcan/media/interfaces.hpp:InterfaceGroup::write"]}
{"id": "C104", "title": "Frames can be sent with and without CAN FD", "statement": "Frames that are valid and fit the bus are accepted by write() of the SocketCAN example whether or not CAN FD was enabled in openSocket and whether or not the device can do CAN FD.", "quantifier": "every interface, enable_can_fd or not, every device (MTU 16 or 72), every one to four frames of at most eight bytes, with room in the queue", "why_tests_cant": "the examples open their sockets with CAN FD on virtual devices; the message size the kernel checks is fixed in the constructor and no test sends with CAN FD disabled", "anchors": ["test/linux/example/media_on_linux/SocketCANInterface.cpp:SocketCANInterface::SocketCANInterface", "test/linux/example/media_on_linux/SocketCANInterface.cpp:SocketCANInterface::write", "test/linux/example/media_on_linux/SocketCANInterfaceManager.cpp:SocketCANInterfaceManager::openSocket"]}
{"id": "C105", "title": "Time stamps never go back", "statement": "The monotonic time stamps read() of the SocketCAN example gives to the frames it delivers never decrease in the order of arrival.", "quantifier": "every history of calls (writes, failed reads, reads of one to four messages), every course of time with messages arriving and the time of day being set forward or back by any amount", "why_tests_cant": "a test would have to set the clock of the machine it runs on between two messages; without that, the time of day looks like a monotonic clock", "anchors": ["test/linux/example/media_on_linux/SocketCANInterface.cpp:SocketCANInterface::read", "test/linux/example/media_on_linux/SocketCANInterfaceManager.cpp:SocketCANInterfaceManager::openSocket", "libuavcan/include/libuavcan/media/interfaces.hpp:InterfaceGroup::read", "libuavcan/include/libuavcan/media/can.hpp:Frame::timestamp"]}
{"id": "C106", "title": "The pool is constructed once, before its first use", "statement": "However many threads construct allocators of the same pool for the first time at the same moment, the pool is constructed exactly once, before any of them has a reference to it, no thread waits for ever, and from then on everything is as if the pool had been constructed before the threads started. Without thread-safe statics this holds if, as documented, no two threads are in getReference before a first call has returned.", "quantifier": "every number of threads, every interleaving of first accesses, of the writes of the constructor and of allocations and deallocations; every number and size of blocks; thread-safe statics or not", "why_tests_cant": "the moment of the first access comes once per run; a test would have to stop a thread between two instructions of the constructor or of the guard", "anchors": ["libuavcan/include/libuavcan/platform/memory.hpp:StaticMemoryPool::getReference", "libuavcan/include/libuavcan/platform/memory.hpp:StaticMemoryPool::StaticMemoryPool", "libuavcan/include/libuavcan/platform/memory.hpp:PoolAllocator::PoolAllocator", "test/cmake/compiler_flag_sets/cortex-m4-fpv4-sp-d16-nosys.cmake"]}
{"id": "C107", "title": "The loopback test ends in time and reports every second", "statement": "run_test of the example ends after the round in which ten seconds since start_test pass, at the latest. It ends earlier only if it has succeeded and is not to run continuously, and it says that it timed out exactly if it did. While it runs it prints the statistics of all interfaces, in order and right for all messages received in earlier rounds, with reports at least one second apart and never a second or more between a look at the clock after select and the last report.", "quantifier": "every steady clock and duration of rounds, every number of interfaces, every sequence of messages and answers of the kernel, running continuously or not", "why_tests_cant": "the durations and what arrives meanwhile depend on the machine and the bus; a test sees one run, and the claim is about what is printed at any moment of any run", "anchors": ["test/linux/example/media_on_linux/main.cpp:LoopBackTest::run_test", "test/linux/example/media_on_linux/main.cpp:print_stats", "test/linux/example/media_on_linux/main.cpp:LoopBackTest::start_test", "test/linux/example/media_on_linux/SocketCANInterface.cpp:SocketCANInterface::getStatistics"]}
{"id": "C108", "title": "Calls to the pool take bounded time", "statement": "For every pool there is a bound on the number of accesses to shared memory that a call of allocate or deallocate makes, whatever other threads do; and no call ever waits for another thread.", "quantifier": "every number of threads and every interleaving of their calls, with and without spurious failures of the compare-exchange", "why_tests_cant": "the longest call depends on the worst interleaving; a test sees the scheduler's choice", "anchors": ["libuavcan/include/libuavcan/platform/memory.hpp:StaticMemoryPool::allocate", "libuavcan/include/libuavcan/platform/memory.hpp:StaticMemoryPool::deallocate", "CONTRIBUTING.md:Deterministic by default"]}
{"id": "C109", "title": "Every received frame is delivered once, and SuccessNothing means that nothing was", "statement": "Whatever arrives and fails between calls of read, the calls together deliver every deliverable message exactly once and in the order of arrival; and a successful call returns SuccessNothing exactly if it delivers no frame.", "quantifier": "every sequence of arrivals, socket errors and calls of read, with every content of the messages and of the arrays", "why_tests_cant": "which messages share one call depends on when they arrive; tests see one interleaving and no error messages", "anchors": ["test/linux/example/media_on_linux/SocketCANInterface.cpp:SocketCANInterface::read", "libuavcan/include/libuavcan/libuavcan.hpp:Result", "libuavcan/include/libuavcan/media/interfaces.hpp:InterfaceGroup::read"]}
{"id": "C110", "title": "What one application writes, another reads", "statement": "An application sends frames one after the other through write, leaving out as many as write says were written; another reads from its interface on the same bus. Whatever the kernel takes, refuses and reports meanwhile, once everything is sent and received the receiver has got the same frames: none lost, none doubled, in the same order, with the same identifiers and payloads.", "quantifier": "every list of frames with valid data length codes, every interleaving of writes, reads and socket errors, every number of frames taken by each call, every bus that follows CAN FD", "why_tests_cant": "it joins write, kernel, bus, kernel and read over all interleavings; tests use a virtual bus and frames that fit", "anchors": ["test/linux/example/media_on_linux/SocketCANInterface.cpp:SocketCANInterface::write", "test/linux/example/media_on_linux/SocketCANInterface.cpp:SocketCANInterface::read", "libuavcan/include/libuavcan/media/interfaces.hpp:InterfaceGroup::write"]}
{"id": "C111", "title": "What the on-target tests print arrives at the terminal", "statement": "Whatever the tests print to standard output, in texts of any length and with flushes in between, has been sent over the serial port, completely and in order, once the stream is flushed.", "quantifier": "every sequence of texts and flushes, every size of the stream's buffer, every behaviour of a serial port that has room again and again", "why_tests_cant": "the tests report through this very channel: a text that is cut off is not seen, and host tests use another C library and terminal", "anchors": ["test/ontarget/S32K148EVB/src/test_sys.c:_write", "test/ontarget/S32K148EVB/src/LPUART.c:LPUART1_transmit_string_len", "test/ontarget/S32K148EVB/src/main.cpp:main"]}
{"id": "C112", "title": "Coverage reports tell what the tests execute", "statement": "Whenever `cov_all` was built successfully, coverage.info lists the lines of the library that the native unit tests, as they are now, have code for, with the number of times that the tests execute them, whatever was built, run or edited in the directory before. The report of each test (coverage.X.filtered.info) gives what this test executes, also if make runs several jobs.", "quantifier": "every set of tests, every history of edits and builds, every order of the builds, every interleaving of the commands of several jobs", "why_tests_cant": "Nothing tests the build itself; the reports of one build do not show what other orders, histories and interleavings give", "anchors": ["test/cmake/modules/Findlcov.cmake:define_native_test_run_with_lcov", "test/native/tests.cmake:cov_all", "test/native/tests.cmake:coverage.all.info", "test/ci/native-gcc-build-and-test.sh"]}
{"id": "C113", "title": "An application that waits with select and reads misses nothing and comes to rest", "statement": "Whatever arrives and fails at the interfaces of a group between calls of select and read, the calls of read for an interface deliver the deliverable messages of this interface once and in order; when select says SuccessTimeout, everything that had arrived at any interface has been delivered; and an application that waits with select and then reads once from each of the getInterfaceCount() interfaces comes to rest when nothing more arrives: from some round on select says SuccessTimeout.", "quantifier": "every group whose interfaces have sockets of their own, every sequence of arrivals, socket errors and calls, every positive timeout", "why_tests_cant": "The interleaving of arrivals with the calls on several interfaces cannot be controlled from a test; an application that spins or sleeps while a message waits still passes tests that only count frames", "anchors": ["test/linux/example/media_on_linux/SocketCANInterfaceGroup.cpp:SocketCANInterfaceGroup::select", "test/linux/example/media_on_linux/SocketCANInterfaceGroup.cpp:SocketCANInterfaceGroup::read", "test/linux/example/media_on_linux/SocketCANInterfaceGroup.cpp:SocketCANInterfaceGroup::getInterfaceCount", "libuavcan/include/libuavcan/media/interfaces.hpp:InterfaceGroup::select"]}
{"id": "C114", "title": "Deadlines can be computed and compared", "statement": "Adding a duration to a time keeps the order of times and of durations, and subtracting reverses that of durations; subtracting a duration that was added gives the time back if the sum is a time; durations can be added one by one or at once; and now >= start + timeout holds exactly if timeout microseconds have passed since start, if start + timeout is a time.", "quantifier": "all times and durations, for every width of the microsecond types", "why_tests_cant": "2^128 pairs of times and durations; the failures are at negative durations and near the maximum, where tests seldom look", "anchors": ["libuavcan/include/libuavcan/time.hpp:time::Base", "libuavcan/include/libuavcan/util/math.hpp:saturating_add", "libuavcan/include/libuavcan/util/math.hpp:saturating_sub"]}
{"id": "C115", "title": "The order of frames is the order of the bus", "statement": "Among frames that compete for a CAN bus, exactly those win the arbitration that no other is greater than (operator>, priorityHigherThan); frames with different identifiers all get on the bus, in the order of operator>, and a std::priority_queue of frames hands them out in exactly that order.", "quantifier": "every set of competing data frames with 29-bit identifiers, whatever flags the identifiers carry", "why_tests_cant": "2^29 identifiers and any number of competing nodes; the bus compares bit by bit, the code numbers", "anchors": ["libuavcan/include/libuavcan/media/can.hpp:Frame::priorityHigherThan", "libuavcan/include/libuavcan/media/can.hpp:Frame::priorityLowerThan", "libuavcan/include/libuavcan/media/can.hpp:Frame::operator<", "libuavcan/include/libuavcan/media/can.hpp:Frame::operator>"]}
{"id": "C116", "title": "Programs over times and durations", "statement": "A program that makes, copies, moves, adds, subtracts, negates and compares times and durations gets, after every statement, exactly the values that exact saturating arithmetic gives, and nothing in it is undefined.", "quantifier": "every program of any length, every number and aliasing of objects, every representable starting value, every width of the microsecond types from 2 bits on", "why_tests_cant": "a fault in one operator shows only in programs that bring its operands about; tests look at single operators", "anchors": ["libuavcan/include/libuavcan/time.hpp:duration::Base", "libuavcan/include/libuavcan/time.hpp:time::Base", "libuavcan/include/libuavcan/util/math.hpp:saturating_add", "libuavcan/include/libuavcan/util/math.hpp:saturating_sub"]}
{"id": "C117", "title": "What passing the unit tests of saturating arithmetic means", "statement": "Operations that pass all unit tests of saturating addition and subtraction for a pair of types give the exact saturated result for all operands of that pair.", "quantifier": "every implementation of the two operations, every pair of types of every width, every operand", "why_tests_cant": "it is about the tests themselves: which wrong implementations they let through", "anchors": ["test/native/test_util_math.cpp", "libuavcan/include/libuavcan/util/math.hpp:saturating_add", "libuavcan/include/libuavcan/util/math.hpp:saturating_sub"]}
{"id": "C118", "title": "The pool can be shared with interrupt handlers", "statement": "A main program and interrupt handlers of any number of priorities can allocate from one pool and give back to it without any lock, whenever the interrupts come: no block is handed out twice, none is lost, and no pointer is followed out of the pool.", "quantifier": "every pool, every number of priorities, every choice of which level allocates, gives back or switches interrupts off, every moment of every interrupt, whatever clients write", "why_tests_cant": "an interrupt has to come between two particular instructions; tests do not run with interrupts at all", "anchors": ["libuavcan/include/libuavcan/platform/memory.hpp:StaticMemoryPool::allocate", "libuavcan/include/libuavcan/platform/memory.hpp:StaticMemoryPool::deallocate"]}
{"id": "C119", "title": "Messages are packed and unpacked field by field", "statement": "The fields of a message, of any widths and one directly after the other, are packed with one call of copyBitsAlignedToUnaligned each and unpacked with one call of copyBitsUnalignedToAligned each. After packing, every bit of every field is at its place in the message; after unpacking, every variable holds the bits of its field; and what was packed comes back. This holds whether the place of a field is given as the offset from the start of the buffer or as a pointer to its byte and an offset below 8.", "quantifier": "all lists of field widths, all contents of fields, buffer and variables, both ways to name the place of a field", "why_tests_cant": "The tests copy one array per call, between arrays of the same length; which combinations of widths work, and that an earlier field survives the packing of the later ones, is a statement about all lists of widths and all contents.", "anchors": ["libuavcan/include/libuavcan/platform/memory.hpp: copyBitsAlignedToUnaligned, copyBitsUnalignedToAligned", "libuavcan/include/libuavcan/templates"]}
{"id": "C120", "title": "Bits can be moved one at a time to anywhere", "statement": "A program that moves bits one at a time - fetching a bit with copyBitsUnalignedToAligned from its byte, fetching the rest of the byte it goes to, and putting that back with the bit replaced with copyBitsAlignedToUnaligned - copies any number of bits from any position of a buffer to any position of another, and changes no other bit. Messages of every layout are packed and unpacked right that way.", "quantifier": "all contents, positions and lengths that lie within the buffers, all lists of fields", "why_tests_cant": "The tests never make a call with a length that ends within a byte; that such calls are enough to build every copy from is a statement about all positions, lengths and contents.", "anchors": ["libuavcan/include/libuavcan/platform/memory.hpp: copyBitsAlignedToUnaligned, copyBitsUnalignedToAligned"]}
{"id": "C121", "title": "Configuring the build can be repeated", "statement": "If configuring the build fails because a tool or a server is missing, it succeeds when it is repeated with everything there, whatever runs came before; and a run that succeeds has found everything the build needs, with the packages requirements.txt asks for.", "quantifier": "all histories of runs, each with any tools and servers missing, and of deletions of the environment", "why_tests_cant": "The CI configures once, in a container that has everything; a run after a failed one, or after a change of requirements.txt, is never tried.", "anchors": ["test/cmake/modules/Findvirtualenv.cmake", "test/cmake/modules/Findnnvg.cmake", "test/cmake/modules/Findgtest.cmake", "test/cmake/modules/Findpublic_regulated_data_types.cmake", "test/cmake/modules/Findlibuavcan_docs.cmake", "test/cmake/modules/Findclangformat.cmake", "test/CMakeLists.txt:63-94"]}
{"id": "C122", "title": "Containers on one pool do not disturb one another", "statement": "Any number of vectors and unordered maps may take their memory from one pool, beside other users, and be used in any interleaving: each answers as it would alone, as long as no call on it is refused; they notice one another only in the number of blocks left; blocks of other users keep every byte; a refused call leaves the container as it was; and when all are destroyed every block is back. For vectors, one block more than there are vectors at a time is enough.", "quantifier": "all pools, all histories of other users, all element types of which BlockSize elements (for maps: a node) fit into a block, all growth policies, all programs that make, use and destroy vectors and maps", "why_tests_cant": "A unit test can try one vector or one interleaving; that containers on one pool never disturb one another is about all programs and all sizes.", "anchors": ["libuavcan/include/libuavcan/platform/memory.hpp:206-225", "libuavcan/include/libuavcan/platform/memory.hpp (StaticMemoryPool, PoolAllocator)", "libuavcan_validation_suite/include/lvs/platform/memory.hpp:170-306"]}
{"id": "C123", "title": "A dead bus does not stop the redundant ones", "statement": "In a group of interfaces, if no frame leaves one of the network interfaces any more (nobody acknowledges, or the cable is broken), calls of write go on returning, and the other interfaces send and report as if they were alone, whatever is written.", "quantifier": "all groups, all sizes of send buffers and transmit queues, all histories of writes of up to four frames to all interfaces and of frames leaving the others", "why_tests_cant": "The tests write to a virtual bus from which frames always leave; the buffers never fill.", "anchors": ["test/linux/example/media_on_linux/SocketCANInterface.cpp:96-139", "test/linux/example/media_on_linux/SocketCANInterfaceGroup.cpp:67-80", "test/linux/example/media_on_linux/SocketCANInterfaceGroup.cpp:111-160", "libuavcan/include/libuavcan/media/interfaces.hpp:156-174"]}
{"id": "C124", "title": "After waiting for room a frame is taken", "statement": "If select, told not to ignore writing, says Success while nothing can be read, a frame written to the interface is taken at once: write neither waits nor says BufferFull; so an application that waits before writing rests while the bus is busy.", "quantifier": "all sizes of the send buffer and of the transmit queue, all histories of an application with one interface that writes only when select says so, and of frames leaving", "why_tests_cant": "The tests write to a virtual bus from which frames always leave; whether select and write agree about full buffers is never tried.", "anchors": ["test/linux/example/media_on_linux/SocketCANInterfaceGroup.cpp:111-160", "test/linux/example/media_on_linux/SocketCANInterface.cpp:96-139", "test/linux/example/media_on_linux/SocketCANInterfaceManager.cpp:52-190", "libuavcan/include/libuavcan/media/interfaces.hpp:156-174"]}
{"id": "C125", "title": "Threads that use a pool one call at a time and keep to their own blocks do not disturb one another", "statement": "Programs in several threads use one PoolAllocator. Calls of allocate and deallocate are made one at a time (under a lock, say); reads and writes of memory are interleaved in any way. If each program, alone with any allocator, only reads and writes inside blocks it holds and only gives back blocks it holds (or null), then whatever the schedule no call is undefined, each program does what it could do alone and gives an answer it could give alone, its blocks keep what it wrote, blocks of other users are untouched, and an allocation is refused exactly when it is too large or all blocks are held. The condition is needed: one thread that writes into a block it has given back brings a blameless one to undefined behaviour inside the pool.", "quantifier": "all well-formed pools with any blocks held by others, all lists of programs (any branching on what is read), all schedules, all numbers of spurious failures of the compare-exchange", "why_tests_cant": "A test runs a few schedules of a few programs; that separate programs stay separate is a statement about all programs and all interleavings, and the damage of a late write shows only when another thread happens to allocate twice.", "anchors": ["libuavcan/include/libuavcan/platform/memory.hpp:allocate", "libuavcan/include/libuavcan/platform/memory.hpp:deallocate"]}
{"id": "C126", "title": "Frames that wait in order of priority keep the order of a transfer", "statement": "Frames kept in a container of the standard library that is ordered by the operators of Frame are sent each once, the one that would win arbitration first, and frames with one identifier, as those of a transfer of several frames, in the order they were queued.", "quantifier": "all sequences of queueing and taking frames, all frames of all MTUs, and the containers std::priority_queue, std::multiset and std::set", "why_tests_cant": "The tests compare pairs of frames; what the comparisons make of queues of frames, and of frames that are neither higher nor lower but different, is never tried.", "anchors": ["libuavcan/include/libuavcan/media/can.hpp:395-486", "libuavcan/include/libuavcan/media/interfaces.hpp:94-103"]}
{"id": "C127", "title": "Calls of an interface group are defined", "statement": "Calls of write, read, reconfigureFilters and select with arguments as the comments of the interface ask for, in any order and whatever the kernel answers, return and are never undefined; a wrong index is answered with an error.", "quantifier": "all groups of up to 255 interfaces, all sequences of calls with all arguments, and all answers of the kernel to each", "why_tests_cant": "The tests make a few calls that go well; undefined behaviour need not show when it happens, and the answers of the kernel cannot be enumerated.", "anchors": ["test/linux/example/media_on_linux/SocketCANInterfaceGroup.cpp:67-199", "test/linux/example/media_on_linux/SocketCANInterface.cpp:96-254", "libuavcan/include/libuavcan/media/interfaces.hpp:60-174", "libuavcan/include/libuavcan/util/math.hpp:60-130"]}
{"id": "C128", "title": "A trace tells which frames were received", "statement": "With traces turned on, the output of the SocketCAN example tells which interface received which frames: identifier and time of every frame delivered, in order, and no others; and turning traces on changes nothing else.", "quantifier": "all numbers of interfaces, all sequences of reading, closing and setting up sockets, all answers of the kernel with all control data", "why_tests_cant": "Nothing tests the output of traces; whether texts can be told apart concerns all numbers and all sequences at once.", "anchors": ["libuavcan/include/libuavcan/introspection.hpp:33-45", "test/linux/example/media_on_linux/SocketCANInterface.cpp:70-74", "test/linux/example/media_on_linux/SocketCANInterface.cpp:141-254", "test/linux/example/media_on_linux/SocketCANInterfaceManager.cpp:114-137"]}
{"id": "C129", "title": "Threads may share an interface group if they keep apart", "statement": "Several threads may use one interface group at once if each interface is read, written and asked for its statistics by one thread at most and one thread at most waits with select: there is no data race, and every thread gets the answers it would get alone. Filters may be set by any of them. Which pairs of calls may race is told exactly, and what then goes wrong.", "quantifier": "all groups, all numbers of threads, all sequences of calls depending on earlier answers, all answers of the kernel, all schedules", "why_tests_cant": "Tests see a few schedules of few threads; races show seldom, and the example has no test with two threads at all.", "anchors": ["test/linux/example/media_on_linux/SocketCANInterface.cpp:86-254", "test/linux/example/media_on_linux/SocketCANInterface.hpp:58-70", "test/linux/example/media_on_linux/SocketCANInterfaceGroup.cpp:55-153", "test/linux/example/media_on_linux/SocketCANInterfaceGroup.hpp:30-40", "libuavcan/include/libuavcan/media/interfaces.hpp"]}
{"id": "C130", "title": "Macros can be used like functions, turned on or off", "statement": "Code that uses LIBUAVCAN_ASSERT, LIBUAVCAN_TRACE, LIBUAVCAN_TRACEF, DEV_ASSERT, ENABLE_INTERRUPTS and DISABLE_INTERRUPTS as if they were functions compiles whichever of them are turned on and whichever compiler is used, means what it seems to mean, and does the same with them turned on as with them turned off, except that a failed assertion stops it and traces are printed.", "quantifier": "all texts of functions made of if, else, while, do, braces, expressions and uses of the macros; all configurations; all states; all numbers of rounds of loops", "why_tests_cant": "The macros' text depends on the configuration; tests are built in one configuration, and see only the places where the macros are used now.", "anchors": ["libuavcan/include/libuavcan/introspection.hpp:LIBUAVCAN_ASSERT", "libuavcan/include/libuavcan/introspection.hpp:LIBUAVCAN_TRACE", "libuavcan/include/libuavcan/introspection.hpp:LIBUAVCAN_TRACEF", "test/ontarget/S32K148EVB/include/devassert.h:DEV_ASSERT", "test/ontarget/S32K148EVB/include/s32_core_cm4.h:ENABLE_INTERRUPTS"]}
{"id": "C131", "title": "After discarding what waited, an application gets only what matches its filters", "statement": "Once an application has started a group or changed its filters with success, and has then read from an interface until read says SuccessNothing, it gets from this interface exactly the frames that arrive on it from then on and match one of the filters: each of them once and in order, and nothing else, whatever arrived while the group was started or the filters were changed, and whatever errors the socket has.", "quantifier": "all lists of fewer than 2^29 filters, all groups of up to 255 interfaces, all earlier histories of the socket, all interleavings of arriving messages, socket errors and calls of read", "why_tests_cant": "Tests send frames after everything is set up; frames that arrive between the system calls of the set-up are a matter of microseconds.", "anchors": ["test/linux/example/media_on_linux/SocketCANInterfaceManager.cpp:startInterfaceGroup", "test/linux/example/media_on_linux/SocketCANInterfaceGroup.cpp:reconfigureFilters", "test/linux/example/media_on_linux/SocketCANInterfaceGroup.cpp:configureFilters", "test/linux/example/media_on_linux/SocketCANInterface.cpp:read"]}
{"id": "C132", "title": "Bytes can be reversed with every compiler", "statement": "REV_BYTES_32 puts the four bytes of its argument in the opposite order and REV_BYTES_16 the two bytes of each half, whichever compiler is used and whatever expression the argument is.", "quantifier": "all compilers, all values, all arguments made of operands and binary operators", "why_tests_cant": "Tests are built with one compiler, for which the macros are an instruction; the expression used by others is never compiled.", "anchors": ["test/ontarget/S32K148EVB/include/s32_core_cm4.h:REV_BYTES_32", "test/ontarget/S32K148EVB/include/s32_core_cm4.h:REV_BYTES_16"]}
{"id": "C133", "title": "A transmit queue emptied by write reaches the receiver whole, the best frame first and each identifier in order", "statement": "An application keeps frames in a std::multiset<Frame, std::greater<Frame>>, queues new ones at any time, calls InterfaceGroup write with up to four from its beginning and erases as many as write says were written; another application on the bus calls read. With frames of up to 8 bytes (of any length on a virtual bus) and identifiers other than 0, whatever the kernel takes or refuses: the receiver gets exactly the frames that should be sent, each the one that came first of those that would win arbitration among all waiting at that time; none is lost or doubled, and frames with one identifier (of one transfer) arrive in the order queued. The queue can always be emptied, and when it is and read says SuccessNothing, everything queued has arrived.", "quantifier": "all sequences of queueing, write, read and receiver errors; all answers of the kernel to sendmmsg and recvmsg; all frames with the length and identifier named; every bus that keeps the order of frames", "why_tests_cant": "The number of interleavings of queueing, partial writes and reads is unbounded, and partial writes happen only when the kernel's buffers are full, which a test cannot arrange for at will.", "anchors": ["libuavcan/include/libuavcan/media/can.hpp:395-486", "test/linux/example/media_on_linux/SocketCANInterface.cpp:SocketCANInterface::write", "test/linux/example/media_on_linux/SocketCANInterface.cpp:SocketCANInterface::read"]}
{"id": "C134", "title": "A transmit queue on the pool allocator holds as many frames as the pool has blocks, and sends as wanted", "statement": "A std::multiset<Frame, std::greater<Frame>, PoolAllocator<NumBlocks, BlockSize, Frame>> whose nodes fit into a block refuses a frame (std::bad_alloc) exactly if it and other users hold all NumBlocks blocks; otherwise it queues it. What it sends next is the frame that came first of those that would win arbitration. It uses one block for each frame that waits, never writes to other users' blocks, and gives every block back when a frame is sent or the queue is destroyed. Without exceptions the same holds as long as there is room, and the first frame too many is undefined behaviour; nodes that do not fit into a block are refused when the program is compiled, without which they would be written beyond it.", "quantifier": "all pools, all sequences of queueing and sending, all frames, all layouts of frames in memory, all ways of balancing the tree, any number of spurious failures of the compare-exchange, any blocks held by other users", "why_tests_cant": "The suite tests vectors and unordered maps with a few elements; whether order and memory are right depends on every sequence of calls up to and beyond exhaustion, and on tree shapes chosen by the library.", "anchors": ["libuavcan/include/libuavcan/platform/memory.hpp:PoolAllocator::allocate", "libuavcan/include/libuavcan/platform/memory.hpp:PoolAllocator::deallocate", "libuavcan/include/libuavcan/media/can.hpp:Frame::operator>"]}
{"id": "C135", "title": "A queue (std::deque, std::queue) on the pool allocator", "statement": "With exceptions enabled and two free blocks, a std::deque or std::queue of T on PoolAllocator<NumBlocks, BlockSize, T> is a queue: elements come out in the order they went in, other users' blocks are untouched, and the destructor gives back all blocks.", "quantifier": "all pools, all sizes of elements, all sequences of push, pop and front, any number of spurious failures of the compare-exchange, any blocks held by other users", "why_tests_cant": "The suite tests no queue. It would appear to work until as many elements have passed through it as fit into one block, and whether that happens in a test depends on how long it runs.", "anchors": ["libuavcan/include/libuavcan/platform/memory.hpp:PoolAllocator::allocate", "libuavcan/include/libuavcan/platform/memory.hpp:PoolAllocator::deallocate"]}
{"id": "C136", "title": "Redundant buses: every frame arrives once, in order, as long as one bus lives", "statement": "One application sends the same frames (up to 8 bytes, identifiers other than 0, see C110) through every interface of its group, each at its own pace; another reads from every interface of its group and counts: the n-th frame from an interface is passed on if fewer than n have been. Then at every time the frames passed on are the first frames sent, each once, in order, as many as the fastest interface has brought, whatever the kernel took or refused, whichever buses were cut when, and whatever errors sockets had. When all frames are written to one interface whose bus was not cut and read says SuccessNothing of it, all have been passed on; and as long as one bus is not cut, this can be reached.", "quantifier": "all groups with any number of interfaces, all lists of frames, all interleavings of writes, reads, errors and cuts on all buses, all answers of the kernel", "why_tests_cant": "Tests use one or two virtual interfaces that do not fail. Order and completeness after failover depend on when each bus is cut, on how many frames each call of write takes, and on the order of reads across interfaces.", "anchors": ["test/linux/example/media_on_linux/SocketCANInterfaceGroup.cpp:SocketCANInterfaceGroup::write", "test/linux/example/media_on_linux/SocketCANInterfaceGroup.cpp:SocketCANInterfaceGroup::read", "test/linux/example/media_on_linux/SocketCANInterface.cpp:SocketCANInterface::write", "test/linux/example/media_on_linux/SocketCANInterface.cpp:SocketCANInterface::read"]}
{"id": "C137", "title": "What passes the tests for durations and times is right, and what is right passes", "statement": "The validation suite's tests for duration and time classes that users write accept the classes that hold, copy, move and compare numbers of microseconds rightly and whose arithmetic saturates, and refuse all others.", "quantifier": "every class for durations and every class for times, with any internal representation, microsecond types of every width of at least 8 bits", "why_tests_cant": "A test sees the class it is instantiated with. Whether the suite as a whole distinguishes right classes from wrong ones is a statement about all classes.", "anchors": ["libuavcan_validation_suite/include/lvs/time.hpp:DurationOrTimeTest", "libuavcan_validation_suite/include/lvs/time.hpp:DurationTest", "libuavcan_validation_suite/include/lvs/time.hpp:TimeTest"]}
{"id": "C138", "title": "What passes the tests for CAN frames is right, and what is right passes", "statement": "The validation suite's tests for frame classes that users write for their media layer accept the classes that hold identifier, data, length and time, translate between lengths and codes as CAN FD has it, order frames as the bus does and compare them rightly, and refuse all others.", "quantifier": "every class for frames, with any internal representation, every MTU with which the tests can be used", "why_tests_cant": "A test sees the class it is instantiated with. Whether the suite as a whole distinguishes right classes from wrong ones is a statement about all classes.", "anchors": ["libuavcan_validation_suite/include/lvs/media/can_frame.hpp:FrameTest", "libuavcan_validation_suite/include/lvs/media/can_frame.hpp:GetDLCTestLoop"]}
{"id": "C139", "title": "Transfers of several frames are received as they were sent", "statement": "An application cuts transfers of any length into pieces of MaxFrameSizeBytes - TailByteSizeBytes bytes of CAN 2.0, adds the tail byte of UAVCAN to each and makes frames of them with the constructor of the library; the frames of different identifiers may be mixed in any way. They wait in a std::multiset and are written from its beginning, or are sent over redundant buses. The receiver reads frames and puts the pieces of each identifier together again. Then at every time the transfers received with an identifier are the first ones sent with it, complete and in order; and when all is written and read says SuccessNothing, all have been received. This can always be reached, over redundant buses as long as one is not cut.", "quantifier": "all transfers of all lengths with all identifiers but 0, all interleavings of their frames, all times of queueing, writing, reading and cutting, all answers of the kernel", "why_tests_cant": "Reassembly depends on the order of all frames of an identifier through a queue, two sockets and a bus; the tests send single frames.", "anchors": ["libuavcan/include/libuavcan/media/can.hpp:TailByteSizeBytes", "libuavcan/include/libuavcan/media/can.hpp:Type2_0", "libuavcan/include/libuavcan/media/can.hpp:Frame", "libuavcan/include/libuavcan/media/can.hpp:Frame::lengthToDlc", "libuavcan/include/libuavcan/media/can.hpp:Frame::operator>", "test/linux/example/media_on_linux/SocketCANInterfaceGroup.cpp:SocketCANInterfaceGroup::write", "test/linux/example/media_on_linux/SocketCANInterfaceGroup.cpp:SocketCANInterfaceGroup::read", "test/linux/example/media_on_linux/SocketCANInterface.cpp:SocketCANInterface::write", "test/linux/example/media_on_linux/SocketCANInterface.cpp:SocketCANInterface::read"]}
{"id": "C140", "title": "A frame is late exactly if the time-out has passed", "statement": "An application checks time-outs as the documentation of read() suggests: it compares the time stamp of a frame with the one of an earlier frame plus the time-out, g.timestamp >= f.timestamp + timeout. Then the answer is yes exactly if at least the time-out has passed between the arrivals of the two frames.", "quantifier": "every history of calls (writes, failed reads, reads of one to four messages), every course of time with messages arriving and the time of day being set, every two frames delivered, every time-out from 0 below 2^63 microseconds", "why_tests_cant": "a test would have to set the clock of the machine between two messages, and would see one time-out of 2^63", "anchors": ["libuavcan/include/libuavcan/media/interfaces.hpp:InterfaceGroup::read", "libuavcan/include/libuavcan/media/can.hpp:Frame::timestamp", "libuavcan/include/libuavcan/time.hpp:time::Base", "test/linux/example/media_on_linux/SocketCANInterface.cpp:SocketCANInterface::read"]}
{"id": "C141", "title": "A frame waits only for frames that are to go first", "statement": "Frames wait in a std::multiset with the operators of Frame and are written from its beginning, as many at a time as write() takes. A frame leaves the queue exactly when more frames have been written since it was queued than waited then with its priority or a higher one and have been queued since with a higher one. So frames of lower priority never delay it, and frames of its own priority that come later do not. There is no other limit: while frames of higher priority keep coming it waits.", "quantifier": "all histories of queueing and writing before and after the frame is queued, all frames with all identifiers, all answers of the kernel, all calls of the receiver", "why_tests_cant": "that nothing else delays a frame is a statement about all traffic before and after it; tests compare two frames at a time", "anchors": ["libuavcan/include/libuavcan/media/can.hpp:Frame::operator>", "libuavcan/include/libuavcan/media/can.hpp:Frame::priorityHigherThan", "test/linux/example/media_on_linux/SocketCANInterfaceGroup.cpp:SocketCANInterfaceGroup::write", "test/linux/example/media_on_linux/SocketCANInterface.cpp:SocketCANInterface::write", "test/linux/example/media_on_linux/SocketCANInterface.cpp:SocketCANInterface::read"]}
{"id": "C142", "title": "A list on the pool allocator is a list with room for as many elements as the pool has blocks", "statement": "A std::list<T, PoolAllocator<NumBlocks, BlockSize, T>>, with exceptions, answers every insertion, removal and access at any position as a list with room for as many elements as the pool has blocks left, however long it is used: an element is refused (std::bad_alloc) exactly if the list holds that many. It has one block for each element, never writes to other users' blocks, and gives all blocks back when it is destroyed. Without exceptions the same holds as long as there is room, and the first element too many is undefined behaviour. Nodes fit into blocks in every program that is compiled. In particular elements can come and go for ever with a single block, which a std::deque cannot do (C135).", "quantifier": "all pools, all sequences of calls with existing positions, all elements and sizes of elements, all contents of node headers, any number of spurious failures of the compare-exchange, any blocks held by other users", "why_tests_cant": "The suite tests vectors and unordered maps with a few elements, no lists; order and memory depend on every sequence of calls, and the deque of C135 shows that the first couple of hundred say nothing about later ones.", "anchors": ["libuavcan/include/libuavcan/platform/memory.hpp:PoolAllocator::allocate", "libuavcan/include/libuavcan/platform/memory.hpp:PoolAllocator::deallocate", "libuavcan/include/libuavcan/platform/memory.hpp:PoolAllocator::rebind"]}
{"id": "C143", "title": "How long a frame waits in a transmit queue on the pool allocator, and what it is refused for", "statement": "Frames wait in a std::multiset with the operators of Frame on the pool allocator, with exceptions. A frame that is refused leaves no trace: what is sent is what a queue without limits would send had it never been offered. A frame that is accepted has been sent, in its place among those with its identifier, when as many frames have been taken as the pool has blocks left for the queue, and one more for each frame of higher priority that was accepted since. Priority does not help to be accepted: when frames of low priority have all blocks, one of the highest is refused.", "quantifier": "all pools, all histories of queueing and sending, all frames, all layouts of frames, all ways of balancing the tree, any blocks held by other users", "why_tests_cant": "a bound on waiting is a statement about all traffic before and after the frame, up to and beyond exhaustion of the pool; the suite has no transmit queue", "anchors": ["libuavcan/include/libuavcan/platform/memory.hpp:PoolAllocator::allocate", "libuavcan/include/libuavcan/media/can.hpp:Frame::operator>"]}
{"id": "C144", "title": "Lists and transmit queues on one pool know nothing of each other but for the room", "statement": "Any number of lists and transmit queues (multisets of frames), with elements of any types whose nodes fit into blocks, share one pool with each other and with other users. With exceptions they answer, whatever calls are made on them in whatever order, as lists and queues that are separate but for the room: one is refused an element exactly if all of them and the other users together hold all blocks. No call changes an element of another container or a byte of another user. Each element has one block, and when all containers are empty again every block they had can be given out again. A queue is sure of as many blocks as the others leave, and of no more: separate queues for high and low priority on one pool give no guarantee. Without exceptions all this holds until one is refused, which is undefined.", "quantifier": "all pools, all families of lists and queues, all element types and layouts, all sequences of calls, all ways of balancing trees and linking nodes, any blocks held by other users", "why_tests_cant": "that containers do not disturb each other is a statement about every interleaving of calls on every family of containers; the suite tests vectors and maps, one kind on a pool, and has no list and no transmit queue", "anchors": ["libuavcan/include/libuavcan/platform/memory.hpp:PoolAllocator::allocate", "libuavcan/include/libuavcan/platform/memory.hpp:StaticMemoryPool::getReference"]}
{"id": "C145", "title": "When the pool is exhausted, a transfer is received as a whole or not at all", "statement": "An application cuts transfers into frames (as in C139) and offers them to a std::multiset on the pool allocator, which refuses frames while the pool has no block; the frames accepted are sent, by the operators of Frame, in the order of their priority. Whatever payload a receiver puts together is one that was sent. This is false: of a transfer of four frames the second and the third can be refused, and as the toggle bit has two values the receiver takes the fourth for the second and gets a payload nobody sent. It is true of applications that give up a transfer when one of its frames is refused: what is received are, at every time, the first of the transfers every frame of which was accepted, complete and in order, and all of them once nothing waits any more; also over a bus. And if for whatever reason one frame of one transfer is lost, exactly this transfer is. If a run of frames from the middle of one is lost, the transfer is if their number is odd; if it is even, a payload without their bytes is received.", "quantifier": "all pools, all histories, all transfers of all lengths with all identifiers but 0, all interleavings of offering and sending, all ways of balancing the tree, any blocks held by other users", "why_tests_cant": "needs the pool to be exhausted at a particular frame of a particular transfer, and all interleavings of sending and offering; the suite has neither transmit queues nor transfers of several frames", "anchors": ["libuavcan/include/libuavcan/platform/memory.hpp:PoolAllocator::allocate", "libuavcan/include/libuavcan/media/can.hpp:TailByteSizeBytes", "libuavcan/include/libuavcan/media/can.hpp:Frame::operator>"]}
{"id": "C146", "title": "What passes the tests of Result is right, and what is right passes", "statement": "Whatever implementation of operator!, isSuccess and isFailure passes the unit tests of Result says of every result what its value means: positive is success, anything else failure; and the right one passes. The second half is true, also of the library. The first is false: the library with < instead of <= passes, by which BufferFull, the only result with value 0, is a success. It is true of all results but BufferFull for implementations that compare values with a limit, and of all results with one assertion more.", "quantifier": "all implementations of the three functions, all results", "why_tests_cant": "the tests ask for ten answers of the thirty-three; what passing says about the others is a statement about all implementations", "anchors": ["test/native/test_result.cpp:ResultBangOperator", "test/native/test_result.cpp:ResultSuccessHelper", "test/native/test_result.cpp:ResultFailureHelper", "libuavcan/include/libuavcan/libuavcan.hpp:Result"]}
