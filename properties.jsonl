{"id": "C01", "title": "Resizing a Buffer edits its byte sequence like a deque", "statement": "After AddAtStart(n) a Buffer reads as n fresh bytes followed by exactly its previous bytes; after AddAtEnd(n) as its previous bytes followed by n fresh bytes; RemoveAtStart(n)/RemoveAtEnd(n) drop exactly the first/last min(n,size) bytes. GetSize always equals the length of that byte sequence, whatever storage decision (in-place, move, reallocate) the call takes.", "quantifier": "every history of constructions, copies, moves, assignments, iterator writes, adds and removes over any number of buffers sharing storages, every size", "why_tests_cant": "which of the seven storage branches runs depends on the whole sharing history; tests sample a few", "anchors": ["network/buffer/buffer.h: AddAtStart, AddAtEnd, RemoveAtStart, RemoveAtEnd, InternalAddAtStart*/InternalAddAtEnd*", "network/buffer/storage/basic-buffer-storage.h"]}
{"id": "C02", "title": "Resizing one Buffer never changes the bytes of another Buffer", "statement": "When one Buffer is grown or shrunk, and when bytes are then written into the area the growth just added, the byte sequence seen through every other Buffer (copies, fragments, deep copies) is unchanged.", "quantifier": "every history of all Buffer operations including MakeFragment and MakeRealBuffer, every pair of buffers", "why_tests_cant": "aliasing faults need a specific order of copy/fragment/remove/add operations to show", "anchors": ["network/buffer/buffer.h: AddAtStart, AddAtEnd, MakeFragment, Buffer(BufferStorage*, size_t, size_t)", "network/buffer/storage/basic-buffer-storage.h: dirtyStart_, dirtyEnd_"]}
{"id": "C03", "title": "A Buffer fragment reads as exactly the requested slice and starts out unaffected", "statement": "MakeFragment(start,size) with start<=GetSize and size<=GetSize-start yields a Buffer whose bytes are bytes[start, start+size) of the original, and leaves the original's and every other Buffer's bytes unchanged.", "quantifier": "every reachable buffer state, every start and size in range", "why_tests_cant": "A fragment's offsets are sums of the buffer's own offsets; tests try a few starts and sizes on one layout, while a buffer reaches its layout by any history of resizes and shares.", "anchors": ["network/buffer/buffer.h: MakeFragment"]}
{"id": "C04", "title": "A Buffer built from another kind of buffer owns its bytes", "statement": "Constructing a Buffer from a FixedBuffer/ZcBuffer (deep copy) yields a Buffer with the same bytes in a storage shared with no existing Buffer: bytes written later into either are not seen by the other, and with deep copies around no resize of any Buffer changes another Buffer's bytes. (Buffer::MakeRealBuffer itself is a shallow copy and is covered by C02.)", "quantifier": "every reachable state and every later history", "why_tests_cant": "the fault appears only after a further copy, a removal to empty and an append", "anchors": ["network/buffer/buffer.h: MakeRealBuffer, Realize, Buffer(size_t, size_t, BufferStorage*)"]}
{"id": "C05", "title": "Buffer storage reference counts are exact and every byte access is in bounds", "statement": "At every point the reference count of a storage equals the number of Buffers that hold it, a storage is freed exactly when its last Buffer lets go, no freed storage is reachable, and each Buffer's byte range lies inside its storage's capacity.", "quantifier": "every finite history of Buffer constructions, copies, moves, assignments, resizes, fragments and destructions over any number of Buffers", "why_tests_cant": "Leaks, double frees and use after free depend on the whole history of sharing; a test run follows one history.", "anchors": ["network/buffer/buffer.h: Acquire, Release, copy/move constructors and assignments", "network/buffer/storage/basic-buffer-storage.h: Allocate, AddRef, Release"]}
{"id": "C06", "title": "Prepending or appending data or a Buffer concatenates the bytes", "statement": "AddAtStart(src,n)/AddAtEnd(src,n) make the Buffer read as src++old / old++src; AddAtStart(buffer)/AddAtEnd(buffer) concatenate the two byte sequences, also when the argument is the buffer itself, and leave the other operand unchanged.", "quantifier": "every pair of buffers (aliased or not) in every sharing state, every source block", "why_tests_cant": "Whether bytes are moved in place or copied depends on aliasing, free space at either end and sharing history; tests cover a few combinations.", "anchors": ["network/buffer/buffer.h: AddAtStart(const uint8_t*, size_t), AddAtStart(const Buffer&), AddAtEnd(...)"]}
{"id": "C07", "title": "CopyTo copies exactly the leading bytes that fit", "statement": "CopyTo(dst,n) writes the first min(n,GetSize()) bytes of the buffer to dst, returns that number, and touches nothing else.", "quantifier": "every reachable buffer, every destination block and every requested number of bytes", "why_tests_cant": "The result depends on the relation of three sizes at every buffer layout; tests pick a few sizes.", "anchors": ["network/buffer/buffer.h: CopyTo", "network/buffer/zc-buffer.h: CopyTo"]}
{"id": "C08", "title": "A zero-compressed buffer reads as header ++ zeros ++ trailer under resizing", "statement": "A ZcBuffer behaves as the byte sequence header ++ zeros ++ trailer: AddAtStart(n) prepends n fresh bytes, AddAtEnd(n) appends n fresh bytes, RemoveAtStart/RemoveAtEnd drop bytes from either end (through header, zero area and trailer), GetSize is its length.", "quantifier": "every history of ZcBuffer operations, every size and every position of the cut relative to the zero area", "why_tests_cant": "Each operation splits into cases on where the cut falls relative to the zero area and on who shares the storage; the reachable combinations are unbounded.", "anchors": ["network/buffer/zc-buffer.h: AddAtStart, AddAtEnd, RemoveAtStart, RemoveAtEnd, MakeFragment"]}
{"id": "C09", "title": "Resizing one ZcBuffer never changes the bytes of another ZcBuffer", "statement": "Growing or shrinking a ZcBuffer and writing into the newly added area never changes the byte sequence read through any other ZcBuffer, including copies and fragments sharing storage.", "quantifier": "every history of ZcBuffer operations (deep copies included), every pair of buffers", "why_tests_cant": "aliasing through shared storage depends on the whole history", "anchors": ["network/buffer/zc-buffer.h: AddAtStart, AddAtEnd, MakeFragment, ZcBuffer(size_t,size_t,size_t,size_t,BufferStorage*)"]}
{"id": "C10", "title": "Materialising a ZcBuffer preserves its bytes", "statement": "MakeRealBuffer yields an ordinary Buffer whose bytes equal the ZcBuffer's header ++ zeros ++ trailer, and CopyTo(dst,n) yields the first min(n,size) of them.", "quantifier": "every ZcBuffer reachable by any history of operations, every destination size", "why_tests_cant": "All layouts of header, zero area and trailer, empty and shared storages included, cannot be enumerated.", "anchors": ["network/buffer/zc-buffer.h: MakeRealBuffer, InternalGetRealBuffer, CopyTo"]}
{"id": "C11", "title": "Integers written to a buffer read back unchanged in the same byte order", "statement": "Writing a value of 1, 2, 4 or 8 bytes with WriteL/WriteB/Write at a cursor and reading the same width with the matching ReadL/ReadB/Read at the same position returns the value, and advances the cursor by exactly the width; no other byte of the buffer changes.", "quantifier": "every value, width, cursor position with room, buffer contents", "why_tests_cant": "There are 2^64 values at unboundedly many positions in buffers with arbitrary contents.", "anchors": ["network/buffer/iterator/buffer-iterator.h: Write*, Read*", "utility/endian.h"]}
{"id": "C12", "title": "Reading a zero-compressed buffer through its iterator yields its logical bytes", "statement": "A read of any width at any cursor position of a ZcBuffer iterator returns the value of the logical bytes header ++ zeros ++ trailer at that position in the requested byte order, including reads that straddle the boundaries of the zero area.", "quantifier": "every layout of the zero area, every cursor, every width and byte order", "why_tests_cant": "each width has up to nine straddling cases at every position", "anchors": ["network/buffer/iterator/zc-buffer-iterator.h: InternalRead*, ReadInOrder, CursorToOffset"]}
{"id": "C13", "title": "Little-endian and big-endian writes put the bytes where the wire format says", "statement": "WriteL stores the least significant byte first and WriteB the most significant byte first, on every host byte order.", "quantifier": "every value of every width, both host byte orders", "why_tests_cant": "A test run happens on a host with one byte order, and covers a few of 2^64 values.", "anchors": ["utility/endian.h: ReorderBytes, byte_order_f", "network/buffer/iterator/buffer-iterator.h: WriteInOrder, ReadInOrder"]}
{"id": "C14", "title": "Zero-compressed writes outside the zero area change exactly the addressed bytes", "statement": "Writing through a ZcBuffer iterator at positions outside the zero area changes exactly the addressed logical bytes; an attempt to write inside the zero area is refused.", "quantifier": "every layout of header, zero area and trailer, every cursor, every width and block size", "why_tests_cant": "The boundary arithmetic depends on four unbounded positions; tests hit a few boundaries.", "anchors": ["network/buffer/iterator/zc-buffer-iterator.h: InternalWrite*, CheckWritable"]}
{"id": "C15", "title": "A byte carries a tag exactly when that tag was put on it", "statement": "After Insert(id,tag,start,size) the tag id is found exactly on bytes [start,start+size) among those present, first inserted tag wins for Get, and AddAtStart/AddAtEnd/RemoveAtStart/RemoveAtEnd on the list keep the tag on the same bytes (shifted), as long as the list is never grown on a side after being cut on that side.", "quantifier": "every history of inserts and resizes, every byte position and tag id", "why_tests_cant": "Tag spans are stored relative to offsets that every resize shifts; histories of inserts and resizes are unbounded.", "anchors": ["network/packet/tag/basic-tag-list.h: Insert, Exists, Get, AddAtStart, AddAtEnd, RemoveAtStart, RemoveAtEnd, HasTag"]}
{"id": "C16", "title": "Copies of a tag list are isolated", "statement": "Inserting into or resizing one copy of a tag list never changes which tags are found through another copy, although they share the underlying array.", "quantifier": "every history of inserts and resizes over any number of copies sharing one array", "why_tests_cant": "Whether an insert appends in place or copies the array depends on the whole history of sharing.", "anchors": ["network/packet/tag/basic-tag-list.h: copy constructor, operator=, Insert, PrepareToInsert, Compact, Reallocate, InsertTag"]}
{"id": "C17", "title": "Freshly added bytes carry no tags", "statement": "Bytes newly added by AddAtStart(n) or AddAtEnd(n) carry no tag.", "quantifier": "every tag list state reachable by inserts, removals and additions", "why_tests_cant": "It takes a removal that cuts through a tagged range followed by an addition at that edge; tests add to fresh lists.", "anchors": ["network/packet/tag/basic-tag-list.h: AddAtStart, AddAtEnd, RemoveAtStart, RemoveAtEnd"]}
{"id": "C18", "title": "Concatenating tag lists keeps every byte's tags", "statement": "After AddAtStart(other)/AddAtEnd(other), a byte coming from either operand carries exactly the tags it carried before.", "quantifier": "every pair of reachable tag lists, also a list and itself", "why_tests_cant": "Offsets of two lists with arbitrary histories are combined; tests concatenate a few simple lists.", "anchors": ["network/packet/tag/basic-tag-list.h: AddAtStart(const BasicTagList&), AddAtEnd(const BasicTagList&)"]}
{"id": "C19", "title": "Operations on a packet never change its copies", "statement": "Every operation on one Packet (adding or removing headers and trailers, adding byte or packet tags, copying tags, making fragments) leaves the bytes, byte tags and packet tags seen through every other Packet unchanged.", "quantifier": "every history of packet operations over any number of packets sharing bodies", "why_tests_cant": "Who shares which body is decided by the whole history of copies, fragments and tag operations.", "anchors": ["network/packet/packet.h: MakePrivate, AddHeader, AddTrailer, RemoveHeader, RemoveTrailer, AddByteTag, AddPacketTag, CopyTagsFrom, MakeFragment"]}
{"id": "C20", "title": "Removing a header or trailer undoes adding it", "statement": "AddHeader(n) (or AddTrailer(n)) followed by writes into the returned header area and RemoveHeader(n) (or RemoveTrailer(n)) restores the packet's size, bytes and byte tags.", "quantifier": "every packet, every n, every nesting of headers and trailers", "why_tests_cant": "The nesting depth, sizes and contents are unbounded.", "anchors": ["network/packet/packet.h: AddHeader, RemoveHeader, AddTrailer, RemoveTrailer"]}
{"id": "C21", "title": "Events leave a scheduler in time order, ties in scheduling order", "statement": "Repeatedly taking the next event yields the scheduled events sorted by time point, and events with equal time points in the order they were scheduled.", "quantifier": "every sequence of schedule / cancel / fire operations, every set of time points", "why_tests_cant": "All interleavings of scheduling, cancelling and firing with all patterns of equal times cannot be enumerated.", "anchors": ["simulation/list-scheduler.h: ScheduleAt, GetNextEvent, FireAndRemoveNextEvent", "simulation/set-scheduler.h", "simulation/heap-scheduler.h"]}
{"id": "C22", "title": "The list, set and heap schedulers are interchangeable", "statement": "Driven by the same simulation, the three schedulers hand out the same events in the same order.", "quantifier": "every sequence of schedule, cancel, fire and remove calls with any time points", "why_tests_cant": "The heap's internal order differs from the list's at every step; agreement after a few runs says nothing about the others.", "anchors": ["simulation/list-scheduler.h", "simulation/set-scheduler.h", "simulation/heap-scheduler.h: HeapLessThan, push_heap/pop_heap use"]}
{"id": "C23", "title": "A rejected ScheduleAt changes nothing", "statement": "ScheduleAt without a clock throws Uninitialized, with a null sink throws InvalidPointer, with a time before the clock's now throws InvalidArgument; in each case the scheduler's events and later event identities are unaffected. Otherwise exactly one pending event with the given time is added.", "quantifier": "every scheduler state of all three kinds, every time point, clock state and sink", "why_tests_cant": "The rejection must leave any reachable state unchanged, not only the states of the tests.", "anchors": ["simulation/list-scheduler.h: ScheduleAt", "simulation/set-scheduler.h: ScheduleAt", "simulation/heap-scheduler.h: ScheduleAt"]}
{"id": "C24", "title": "Event identities are unique and increase in scheduling order", "statement": "No two events scheduled on the same scheduler have the same identity, and a later scheduled event has a greater one.", "quantifier": "every history with fewer than 2^64 schedules, cancellations and removals included", "why_tests_cant": "Histories are unbounded; a repeated identity could appear after any of them.", "anchors": ["simulation/list-scheduler.h: nextEventId_", "simulation/event-handle.h: GetId"]}
{"id": "C25", "title": "Each scheduled event is fired at most once, and exactly once unless cancelled", "statement": "In a run to completion, every event that is never cancelled before its turn is fired exactly once; an event cancelled before its turn is never fired.", "quantifier": "every simulation in which sinks schedule and cancel arbitrary further events", "why_tests_cant": "Sinks are programs that schedule and cancel further events; runs of unbounded length cannot be sampled exhaustively.", "anchors": ["simulation/event-handle.h: Fire, Cancel", "simulation/simulator.h: Run"]}
{"id": "C26", "title": "Simulated time never goes back and equals the event's time while it fires", "statement": "During Run, and during RunUntil/RunFor with a target not in the past, the clock is non-decreasing and equals the scheduled time of the event being fired.", "quantifier": "every simulation program, every sink behaviour, every target not in the past", "why_tests_cant": "The behaviours of simulation programs are unbounded in length and branching.", "anchors": ["simulation/simulator.h: Run, RunUntil, RunFor, Now"]}
{"id": "C27", "title": "After Run the clock is the time of the last fired event", "statement": "When Run returns, Now() is the time point of the last event that was fired.", "quantifier": "every simulation program, cancelled events included", "why_tests_cant": "It needs cancelled events behind the last fired one, in every possible program.", "anchors": ["simulation/simulator.h: Run", "simulation/i-simulator.h: Run"]}
{"id": "C28", "title": "RunUntil(t) fires exactly the events due by t and ends at t", "statement": "RunUntil(t) with t>=Now() fires every pending event with time<=t (including ones scheduled meanwhile), fires none later, and unless paused leaves the clock at t.", "quantifier": "every simulation program and every t", "why_tests_cant": "The boundary between due and not due moves while sinks schedule further events; all programs cannot be run.", "anchors": ["simulation/simulator.h: RunUntil"]}
{"id": "C29", "title": "The clock cannot be moved into the past", "statement": "No call of Run, RunUntil or RunFor makes Now() smaller than before the call.", "quantifier": "every simulator state, every call and every argument, past time points included", "why_tests_cant": "The tests never pass a time point in the past, and no finite set of calls covers every state.", "anchors": ["simulation/simulator.h: RunUntil, RunFor"]}
{"id": "C30", "title": "GetNumEvents does not count the running event", "statement": "While an event is firing, GetNumEvents() of the scheduler counts only the events still to be fired.", "quantifier": "every scheduler of the three kinds in every reachable state", "why_tests_cant": "The count is only wrong while a sink runs, in states no test enumerates.", "anchors": ["simulation/i-scheduler.h: GetNumEvents", "simulation/list-scheduler.h: FireAndRemoveNextEvent", "simulation/set-scheduler.h: FireAndRemoveNextEvent"]}
{"id": "C31", "title": "FireAndRemoveNextEvent removes exactly the event it fired", "statement": "FireAndRemoveNextEvent fires the earliest event, removes that event and no other, whatever the sink schedules while running.", "quantifier": "every scheduler state and every sink behaviour", "why_tests_cant": "It needs a sink that schedules an earlier event while it runs; sinks are arbitrary programs.", "anchors": ["simulation/list-scheduler.h: FireAndRemoveNextEvent", "simulation/set-scheduler.h", "simulation/heap-scheduler.h"]}
{"id": "C32", "title": "An event handle goes pending, running, dead and never back", "statement": "A handle is pending from scheduling until it is fired or cancelled, running exactly while its sink runs, and never pending again; Cancel is idempotent and harmless at any time; IsValid is pending or running.", "quantifier": "every interleaving of Cancel, Fire and copies of the handle, also from inside the sink", "why_tests_cant": "All interleavings, re-entrant ones included, cannot be enumerated.", "anchors": ["simulation/event-handle.h: IsPending, IsRunning, IsValid, Cancel, Fire"]}
{"id": "C33", "title": "Simulation life-cycle notifications are well bracketed", "statement": "The begin notification is fired at most once and before everything else; each Run fires run, then events, then pause; the end notification is fired only when no event is left.", "quantifier": "every sequence of Run/RunUntil/Pause calls and event behaviours", "why_tests_cant": "Sequences of calls with arbitrary event behaviours in between are unbounded.", "anchors": ["simulation/simulator.h: CheckBegin, CheckEnd, Run, RunUntil"]}
{"id": "C34", "title": "Firing an event calls every connected sink exactly once", "statement": "Event::Fire calls each sink connected at that moment exactly once, in cookie order, provided sinks do not change connections.", "quantifier": "every history of connects and disconnects on every capacity", "why_tests_cant": "The pattern of holes in the slot table depends on the whole history.", "anchors": ["event/event.h: Fire, Visit"]}
{"id": "C35", "title": "Event cookies identify connections", "statement": "Connect returns a non-zero cookie different from every live one; Disconnect(cookie) removes exactly that connection; an unknown or stale-free cookie is ignored; GetNumSinks is the number of live connections and never exceeds the capacity; connecting beyond capacity throws ConnectionLimit, a null sink InvalidPointer, without any change.", "quantifier": "every history of connects and disconnects, every capacity", "why_tests_cant": "Slots are reused after disconnections; identity must hold after every history.", "anchors": ["event/event.h: Connect, Disconnect, Insert, GetNumSinks, GetSink"]}
{"id": "C36", "title": "A sink may disconnect sinks while the event is firing", "statement": "When a sink disconnects itself or other sinks during Fire, Fire calls no null or out-of-range sink and still calls every sink that stays connected.", "quantifier": "every connection table and every disconnection made by a sink", "why_tests_cant": "It needs the disconnection of particular slots, for instance the last one, from inside a sink.", "anchors": ["event/event.h: Fire(Args...), Fire(void), Disconnect"]}
{"id": "C37", "title": "Portainer cookies identify entries", "statement": "Add returns 0 exactly when the container is full and otherwise a cookie different from every live one; Get/Visit see exactly the live entries; Remove removes exactly that entry.", "quantifier": "every history of adds, removes and visits, every capacity", "why_tests_cant": "Slots are reused after removals; identity must hold after every history.", "anchors": ["event/portainer.h: Add, Remove, Get, Visit, GetSize"]}
{"id": "C38", "title": "Duration conversion is exact to finer units and truncates to coarser units", "statement": "Converting to a finer resolution multiplies exactly when the result is representable; converting to a coarser one truncates toward zero; converting to finer and back is the identity.", "quantifier": "every 64-bit count, every pair of supported resolutions", "why_tests_cant": "2^64 counts times all pairs of units, among them the counts at the edge of overflow.", "anchors": ["chrono/duration.h: ConvertCount, MakeSmallerUnit, MakeBiggerUnit"]}
{"id": "C39", "title": "Comparing durations of different units compares the represented times", "statement": "a<b, a<=b, a>b, a>=b agree with comparing count*resolution as exact rationals, for all counts including those that would overflow a common unit.", "quantifier": "every pair of 64-bit counts and resolutions", "why_tests_cant": "The overflow branches are taken only by huge counts in particular pairs of units, which tests do not reach.", "anchors": ["chrono/duration.h: Less, LessEqual, SafeMultiply"]}
{"id": "C40", "title": "Equality of durations of different units is exact", "statement": "a==b holds exactly when count*resolution agree as exact rationals.", "quantifier": "every pair of 64-bit counts and every pair of supported resolutions", "why_tests_cant": "The branch for overflowing conversions is reached only by huge counts; there are 2^128 pairs for each pair of units.", "anchors": ["chrono/duration.h: Equal"]}
{"id": "C41", "title": "Splitting a duration loses nothing", "statement": "Split yields parts in their natural ranges (hours<24, minutes and seconds<60, sub-second parts<1000) that add up to the absolute value, with the sign reported separately.", "quantifier": "every 64-bit count except the minimum, every resolution", "why_tests_cant": "2^64 counts for each resolution; tests split a handful.", "anchors": ["chrono/duration.h: Split, ToString"]}
{"id": "C42", "title": "Adding and subtracting durations of different units is exact in the finer unit", "statement": "a+b and a-b are expressed in the finer of the two units and equal the exact sum/difference when it is representable.", "quantifier": "every pair of 64-bit counts and units whose exact sum or difference is representable", "why_tests_cant": "2^128 pairs of counts for each pair of units; tests add a few small ones.", "anchors": ["chrono/duration.h: Common, operator+, operator-"]}
{"id": "C43", "title": "Time points and durations satisfy affine arithmetic", "statement": "(t+d)-t=d, t+(u-t)=u, t+d+e=t+(d+e), and t<u iff t's duration is less than u's (absent overflow). A time point made from a duration of any decimal unit lies exactly that far from the epoch if the unit is not finer than the clock's, and otherwise that far truncated toward the epoch; t+d, d+t, t-d, t+=d and t-=d with a duration of any unit move the time point by that distance.", "quantifier": "every 64-bit time point, every 64-bit count and every decimal unit of the duration", "why_tests_cant": "2^64 time points times 2^64 counts times all units; the laws relate all of them.", "anchors": ["chrono/virtual-time-point.h: operator+, operator-, operator+=, operator-=, comparisons, TimePoint(const Duration&)"]}
{"id": "C44", "title": "Circular sequence numbers order any window of half the space", "statement": "For widths above one bit, x precedes the number reached by k increments for every k with 1 <= k < half the number space, and exactly one of a<b, a==b, b<a holds.", "quantifier": "every width above one bit and every pair of numbers of that width", "why_tests_cant": "2^(2*bits) pairs for unboundedly many widths.", "anchors": ["utility/circular-sequence-number.h: less_than, less_equal, inc"]}
{"id": "C45", "title": "Incrementing a sequence number cycles through the whole space", "statement": "k increments take x to (x+k) mod 2^bits: the successor of the maximum is zero and no value is skipped.", "quantifier": "every width, start value and number of increments", "why_tests_cant": "It takes up to 2^bits steps from each of 2^bits values to see the whole cycle.", "anchors": ["utility/circular-sequence-number.h: inc, operator++"]}
{"id": "C46", "title": "Lollipop sequence numbers leave the stick once and then circulate", "statement": "Increments run through the stick up to the circle start, then cycle through the circular part only; stick numbers precede all circular numbers; within the circle the half-window order of circular numbers holds.", "quantifier": "every width, every circle start and every pair of numbers", "why_tests_cant": "All pairs of numbers for all parameters; tests use one circle start.", "anchors": ["utility/lollipop-sequence-number.h: inc, less_than, less_equal"]}
{"id": "C47", "title": "No sequence number precedes itself", "statement": "x<x is false for every circular and every lollipop sequence number, and a<=b is a<b or a==b.", "quantifier": "every width, every circle start and every number", "why_tests_cant": "Degenerate circles are untested, and each width has 2^bits numbers.", "anchors": ["utility/circular-sequence-number.h: less_than, less_equal", "utility/lollipop-sequence-number.h: less_than, less_equal"]}
{"id": "C48", "title": "Sequence numbers survive a write and read on the wire", "statement": "Writing a sequence number into a buffer and reading it back in the same byte order gives the same number, and a number read from the wire is within its range.", "quantifier": "every width, value and byte sequence on the wire", "why_tests_cant": "All values and all byte strings a peer may send cannot be enumerated.", "anchors": ["utility/circular-sequence-number.h: Write*, Read*, GetSize", "utility/lollipop-sequence-number.h: Write*, Read*"]}
{"id": "C49", "title": "Objects live exactly as long as some Ptr holds them", "statement": "The reference count of an object equals the number of Ptrs holding it; the object is destroyed exactly once, when the last Ptr lets go; no Ptr ever refers to a destroyed object.", "quantifier": "every history of Ptr construction, copy, move, assignment (self-assignment included), Reset, Detach and destruction", "why_tests_cant": "Aliased and self-assigned pointers in histories of any length; a test follows one history.", "anchors": ["component/ptr.h: Ptr, Reset, operator=, Detach, swap", "component/object.h: Object"]}
{"id": "C50", "title": "QueryInterface is an equivalence on the interfaces of an object", "statement": "Whether an interface is supported does not depend on which interface of the object is asked or when; asking for IObject always gives the same identity; an unsupported interface throws NoInterface and takes no reference.", "quantifier": "every interface map and every sequence of queries through any interface", "why_tests_cant": "Interface maps are written by users of the library; all maps and query sequences cannot be tried.", "anchors": ["component/object.h: InternalQueryInterfaceVisitor, Object, AggObject, interface map macros"]}
{"id": "C51", "title": "An aggregated object shares the lifetime and identity of its controller", "statement": "References taken through the exported interfaces of an aggregated object keep the controller alive, and QueryInterface through them answers from the controller.", "quantifier": "every history of references taken and dropped through controller and aggregated object", "why_tests_cant": "Lifetimes depend on the whole history of references through both objects.", "anchors": ["component/object.h: Aggregated, AggObject, MemberAggObject, MutualObject"]}
{"id": "C52", "title": "The class registry is a finite map from class identifiers to factories", "statement": "GetClassFactory returns what the latest successful Register for an equal identifier stored, Register of a present identifier throws ClassAlreadyRegistered and changes nothing, Unregister removes only that identifier, looking up an absent one throws ClassNotRegistered.", "quantifier": "every history of registrations, look-ups and removals with any identifiers", "why_tests_cant": "The registry's contents depend on the whole history; a test follows a few calls.", "anchors": ["component/class-registry.h: Register, Unregister, UnregisterAll, GetClassFactory", "component/uid.h: Uid"]}
{"id": "C53", "title": "Address addition and subtraction are arithmetic modulo 2^bits", "statement": "++, --, += n and -= n on an Address give the old value plus or minus the signed 64-bit n modulo 2^bits, and the value always stays below 2^bits.", "quantifier": "every width, value and 64-bit n", "why_tests_cant": "2^bits values times 2^64 increments for every width; carries across limbs appear for special values only.", "anchors": ["network/address/address-little-endian.h: Increment, Decrement, Plus, Minus"]}
{"id": "C54", "title": "Addresses are totally ordered by numeric value", "statement": "==, <, <=, >, >= agree with comparing the unsigned values.", "quantifier": "every width and every pair of values of that width", "why_tests_cant": "All pairs of values of every width, among them those differing in one limb only.", "anchors": ["network/address/address-little-endian.h: Equal, LessThan, LessEqual"]}
{"id": "C55", "title": "Address bitwise operators act on each bit", "statement": "&, |, ^ and ~ compute the bitwise operation on the bits-wide value.", "quantifier": "every width and all values of that width", "why_tests_cant": "2^(2*bits) pairs for every width, with a partly used last limb.", "anchors": ["network/address/address-little-endian.h: BitwiseAnd, BitwiseOr, BitwiseXor, BitwiseNot, Negate"]}
{"id": "C56", "title": "Address shifts multiply or divide by powers of two", "statement": "a<<n is a*2^n mod 2^bits and a>>n is floor(a/2^n), for every n>=0.", "quantifier": "every width, every value and every non-negative shift count", "why_tests_cant": "Counts at and beyond multiples of the limb size and of the width are untested; there are 2^bits values.", "anchors": ["network/address/address-little-endian.h: LeftShift, RightShift"]}
{"id": "C57", "title": "Address multiplication is multiplication modulo 2^bits", "statement": "a*n is a*n mod 2^bits and touches no memory outside the address.", "quantifier": "every width, every value and every multiplier", "why_tests_cant": "Carries between limbs appear for special values only; memory outside the address is not observed by a test.", "anchors": ["network/address/address-little-endian.h: MultiplyAssign, Multiply, MultiplyPlus"]}
{"id": "C58", "title": "The difference of two addresses is their signed distance", "statement": "a-b is the signed difference of the values when it fits in 64 bits, and saturates otherwise.", "quantifier": "every width and every pair of values, distances beyond 64 bits included", "why_tests_cant": "Saturation depends on the exact distance of 2^(2*bits) pairs.", "anchors": ["network/address/address-little-endian.h: Difference, ToInt64"]}
{"id": "C59", "title": "Byte strings and integers convert to the address they denote", "statement": "Constructing or assigning from little-endian bytes, big-endian bytes or an integer gives the denoted value modulo 2^bits (signed integers sign-extended).", "quantifier": "every width, every byte string and every integer", "why_tests_cant": "All byte strings of all lengths relative to all widths cannot be tried.", "anchors": ["network/address/address-little-endian.h: AssignBytes, AssignValue, AssignValues"]}
{"id": "C60", "title": "An address tests true exactly when it is non-zero", "statement": "In a boolean context an Address is true exactly when it is non-zero, and !a is the negation of that.", "quantifier": "every width and every value of that width", "why_tests_cant": "A wrong answer may concern a single one of 2^bits values, for instance one non-zero in its last limb only.", "anchors": ["network/address/address-little-endian.h: operator bool, operator!, IsZero"]}
{"id": "C61", "title": "Addresses survive a write and read on the wire", "statement": "Writing an address into a buffer and reading it back in the same byte order gives an equal address, using exactly ceil(bits/8) bytes.", "quantifier": "every width, every value, every byte order and place in a buffer", "why_tests_cant": "2^bits values for every width, widths that are no multiple of eight included.", "anchors": ["network/address/address-little-endian.h: Write, WriteL, WriteB, Read, ReadL, ReadB"]}
{"id": "C62", "title": "splitmix64 visits every 64-bit value exactly once per period", "statement": "From any seed, the first 2^64 outputs are pairwise distinct (hence each 64-bit value appears exactly once), then repeat.", "quantifier": "every seed and the whole sequence of outputs from it", "why_tests_cant": "Nobody can run 2^64 steps and compare all outputs.", "anchors": ["random/engine/splitmix-engine.h: operator()"]}
{"id": "C63", "title": "xoshiro/xoroshiro state updates lose no entropy and never die", "statement": "Different generator states have different successors, and a non-zero state never becomes the all-zero (stuck) state.", "quantifier": "every generator state of every engine and any number of steps", "why_tests_cant": "2^128 to 2^1024 states cannot be visited.", "anchors": ["random/engine/xoshiro-engine.h: xoshiro_n4_transformer, xoshiro_n8_transformer", "random/engine/xoroshiro-engine.h: transform"]}
{"id": "C64", "title": "Seeding never produces the stuck state", "statement": "For every seed, the 64-bit engines start from a state that is not all-zero.", "quantifier": "every 64-bit seed and every 64-bit engine", "why_tests_cant": "2^64 seeds for each engine; the stuck state could come from one of them.", "anchors": ["random/engine/xoshiro-engine.h: seed", "random/engine/xoroshiro-engine.h: seed"]}
{"id": "C65", "title": "xoroshiro1024 uses its whole state", "statement": "Successive steps of xoroshiro1024 walk through all sixteen state words, as in the published generator, so every state word eventually influences the output.", "quantifier": "every state of sixteen words and any number of steps", "why_tests_cant": "A sample of outputs looks random whether or not all words take part.", "anchors": ["random/engine/xoroshiro-engine.h: transform(state_size_tag<n_>), p_"]}
{"id": "C66", "title": "Floating-point engines produce numbers in [0,1)", "statement": "The *_01 engines return k/2^24 (float) or k/2^53 (double) with 0<=k<2^24 resp. 2^53, exactly representable, hence in [0,1).", "quantifier": "every output of the underlying engine, for float and double", "why_tests_cant": "2^64 outputs; a value of exactly one would be rare.", "anchors": ["random/engine/xoshiro-engine.h: uint_to_real", "random/engine/xoroshiro-engine.h: uint_to_real"]}
{"id": "C67", "title": "discard(n) skips exactly n outputs and equal seeds give equal streams", "statement": "After discard(n) the engine produces what it would have produced after n calls; engines seeded equally produce equal streams; reseeding restarts the stream; seeding a xoshiro or xoroshiro engine with v fills its words, in order, with the outputs of splitmix64 seeded with v.", "quantifier": "every number of skipped outputs, every seed and every engine", "why_tests_cant": "The number of skipped outputs is unbounded and seeds are 64-bit.", "anchors": ["random/engine/*: discard, seed"]}
{"id": "C68", "title": "Rotations are inverse to each other", "statement": "rotl and rotr by the same amount 0<k<width undo each other and permute the words.", "quantifier": "every word of every width and every amount below the width", "why_tests_cant": "2^64 words for each amount.", "anchors": ["random/detail/rot.h"]}
{"id": "C69", "title": "Summary reports the textbook statistics of the samples since Reset", "statement": "Count, Sum, Min, Max, Mean and the (n-1)-normalised variance reported by Summary equal the textbook definitions over the multiset of samples since construction/Reset, NaN where undefined (in exact arithmetic).", "quantifier": "every finite sequence of samples with any resets in between", "why_tests_cant": "All sequences of samples of all lengths cannot be tried.", "anchors": ["statistics/summary/summary.h: OnProbe, Mean, Stddev, Reset"]}
{"id": "C70", "title": "Statistics and probe containers are finite maps, and merging never overwrites", "statement": "Get/Has see exactly the added names; adding a present name throws and changes nothing; MergeFrom adds prefix+name for the merged names and never replaces an existing entry.", "quantifier": "every history of adding, looking up and merging containers", "why_tests_cant": "The contents depend on the whole history; name clashes while merging depend on both containers.", "anchors": ["statistics/statistics-container.h", "statistics/probe/probe-container.h"]}
{"id": "C71", "title": "An enumerator lists each name exactly once", "statement": "From construction or Reset, HasNext/Next yields each name of the snapshot exactly once, then Next throws OutOfBounds; later container changes do not affect it.", "quantifier": "every container contents and every sequence of HasNext, Next and Reset calls, with container changes in between", "why_tests_cant": "Contents and call sequences are unbounded.", "anchors": ["statistics/statistics-enumerator.h", "statistics/probe/probe-enumerator.h"]}
{"id": "C72", "title": "A log record is a named-value map; Copy separates, plain copies share", "statement": "Add never overwrites and reports whether it added, Update always sets, Get/Exists see the latest; values added through a plain copy are visible through the original, values added through Copy() are not.", "quantifier": "every history of Add, Update, Get, copies and Copy() over any number of records", "why_tests_cant": "What two records share depends on how all of them were copied.", "anchors": ["log/log-record.h"]}
{"id": "C73", "title": "A logger is attached to every registered source exactly while it has sinks", "statement": "At every moment each registered source carries exactly one connection of the logger if the logger has at least one sink, and none otherwise; unregistering a source removes its connection.", "quantifier": "every history of Connect, Disconnect, RegisterSource and UnregisterSource calls", "why_tests_cant": "The number of connections at a source depends on the whole history of both kinds of calls.", "anchors": ["log/logger.h", "log/detail/log-source-pool.h"]}
{"id": "C74", "title": "A failed Logger::Connect leaves the logger usable", "statement": "If Connect throws (null sink), a later Connect with a valid sink succeeds.", "quantifier": "every logger state reachable before the failed call", "why_tests_cant": "The error path must leave every reachable state usable, not only the one of a test.", "anchors": ["log/logger.h: Connect", "log/detail/log-source-pool.h: Connect"]}
{"id": "C75", "title": "A log record reaches the sinks exactly when the filter accepts it, with pending values added but never overwritten", "statement": "Logger::Fire delivers the record iff there is no filter or it accepts; the delivered record holds the record's own values plus the logger's pending values for absent names.", "quantifier": "every record, every pending value, every filter and every set of sinks", "why_tests_cant": "Records, pending values and filters are arbitrary, and the hash map may enumerate them in any order.", "anchors": ["log/logger.h: Fire", "log/detail/log-pending-value-pool.h: Apply"]}
{"id": "C76", "title": "BiVector is a bounded sequence indexed from I", "statement": "push_back/pop_back/clear/at behave as on a sequence with indices I..I+size-1, size never exceeds capacity, copies are independent, assign(n,v) leaves exactly n copies of v, every element is constructed once and destroyed once, and when all vectors are gone no memory and no element is left.", "quantifier": "every history of constructions, copies, moves, swaps, assignments, destructions and element operations over any number of vectors, every index base and capacity", "why_tests_cant": "Which cells hold live objects depends on the whole history; a test neither tries all histories nor sees lost objects.", "anchors": ["utility/bi-vector.h"]}
{"id": "C77", "title": "BiMatrix addresses each cell exactly once in either layout", "statement": "(i,j) with I<=i<I+rows, J<=j<J+cols maps injectively onto 0..rows*cols-1 in row-major and column-major layout (in the order of (i,j) resp. (j,i)), and row, column and whole-matrix iterators visit exactly the cells of their row, column or matrix in order, for every matrix whose number of cells fits size_t.", "quantifier": "every number of rows and columns, every index base and both layouts", "why_tests_cant": "All sizes and index pairs cannot be enumerated; errors show for non-square matrices only.", "anchors": ["utility/bi-matrix.h: bi_matrix_at, begin1, end1, begin2, end2"]}
{"id": "C78", "title": "Filling a row or column sets exactly that row or column", "statement": "fill1(i,v)/fill2(j,v) accept exactly the valid rows/columns and set exactly their cells to v.", "quantifier": "every number of rows and columns, both layouts, every index", "why_tests_cant": "Errors show only for non-square matrices and particular indices.", "anchors": ["utility/bi-matrix.h: bi_matrix_fill1, bi_matrix_fill2"]}
{"id": "C79", "title": "Byte-order conversions are involutions and agree with the host order", "statement": "Reordering twice is the identity; native-to-little and native-to-big produce little/big-endian byte images on either host.", "quantifier": "every value of every width, both host byte orders", "why_tests_cant": "2^64 values, on a host with one byte order.", "anchors": ["utility/endian.h"]}
{"id": "C80", "title": "Lexicographic comparison is a total order", "statement": "LexicalCompare(a, b, members...) is -1, 0 or 1 exactly as the sequence of the named members of a is lexicographically less than, equal to or greater than that of b, for members of any ordered types; swapping the objects negates the result and the induced order is transitive.", "quantifier": "every pair and triple of objects, any number of members of any ordered types", "why_tests_cant": "Total order is a statement about all triples of member sequences of any length.", "anchors": ["utility/lexical-compare.h"]}
{"id": "C81", "title": "The power-of-two test accepts exactly 2^k, k>=1", "statement": "is_power_2<n> is true exactly for n = 2^k with k>=1.", "quantifier": "every natural number", "why_tests_cant": "All numbers cannot be tried; an error may concern a single one.", "anchors": ["random/detail/is-power-2.h"]}
{"id": "C82", "title": "Byte blocks and fills survive a round trip", "statement": "A byte block of any length written at a cursor with Write/WriteL/WriteB is returned unchanged by the matching read at the same position; Write stores it as it is, Fill(v,n) stores n copies of v; both advance the cursor by the length and change no other byte.", "quantifier": "every block, length, cursor position with room, buffer contents, byte order and host", "why_tests_cant": "Lengths, positions and contents are unbounded, and a test runs on one host byte order only.", "anchors": ["network/buffer/iterator/buffer-iterator.h: BufferIterator::Write(const uint8_t*, size_t)", "network/buffer/iterator/buffer-iterator.h: BufferIterator::Read(uint8_t*, size_t)", "network/buffer/iterator/buffer-iterator.h: BufferIterator::Fill"]}
{"id": "C83", "title": "An iterator cannot leave its buffer", "statement": "Moving, reading or writing n bytes is refused exactly when the n bytes do not fit between the cursor and the end (start, for backward moves) of the buffer; an accepted forward move of n followed by a backward move of n restores the iterator, and the distance between the two positions is n.", "quantifier": "every iterator, every size_t count, every access width", "why_tests_cant": "The set of counts is 2^64 wide and the interesting ones wrap the address arithmetic.", "anchors": ["network/buffer/iterator/buffer-iterator.h: CanMoveForward", "network/buffer/iterator/buffer-iterator.h: CanMoveBackward", "network/buffer/iterator/buffer-iterator.h: operator-", "network/buffer/iterator/zc-buffer-iterator.h: ZcBufferIterator::MoveForward, MoveBackward, operator-"]}
{"id": "C84", "title": "Output scramblers lose nothing of the state word they read", "statement": "The * and ** output functions of the xoshiro and xoroshiro engines are one-to-one functions of the state word they read, and the + output function is one-to-one in each of its two words, so no output value is favoured by the output function.", "quantifier": "every engine type and every 32/64-bit state word", "why_tests_cant": "The claim compares all pairs of 2^32 or 2^64 words; sampling outputs cannot show that two words collide.", "anchors": ["random/engine/xoshiro-engine.h: xoshiro_starstar_scrambler", "random/engine/xoroshiro-engine.h: xoroshiro_star_scrambler", "random/engine/xoshiro-engine.h: xoshiro_plus_scrambler"]}
{"id": "C85", "title": "Packet operations do exactly what they say to bytes and tags", "statement": "AddHeader/AddTrailer with a size, a buffer or a packet (also the packet itself) give the concatenation of the added bytes and the packet's bytes; RemoveHeader/RemoveTrailer drop exactly the requested bytes; MakeFragment(start, size) is a packet of exactly the bytes [start, start+size); every byte kept keeps its byte tags and packet tags, and every tagged byte of an added packet is tagged with the same id in the result.", "quantifier": "every reachable state of any number of packets sharing bodies, every operation and argument", "why_tests_cant": "the effect depends on which bodies and storages are shared, i.e. on the whole history", "anchors": ["network/packet/packet.h: AddHeader, AddTrailer, RemoveHeader, RemoveTrailer, MakeFragment"]}
{"id": "C86", "title": "Packets are always usable and their tag lists track exactly their bytes", "statement": "In every history copying, moving, assigning, swapping, destroying packets and adding packets to packets never touches a released body; RemoveHeader/RemoveTrailer succeed exactly for sizes up to GetSize(), a byte or packet tag can be added exactly to a nonempty range within the packet, and AddByteTag tags exactly the bytes of the range that have no tag of that id yet, leaving bytes and other tags alone.", "quantifier": "every history of packet operations over any number of packets", "why_tests_cant": "reference counts and the agreement of three separately resized parts depend on the whole history", "anchors": ["network/packet/packet.h: Packet, AddRef, Release, MakePrivate, AddByteTag, AddPacketTag, RemoveHeader, RemoveTrailer"]}
{"id": "C87", "title": "Address text form denotes the address", "statement": "ToString of an Address gives exactly two hexadecimal digits per byte of the address, most significant first, and the digits denote the address, so different addresses have different strings.", "quantifier": "every width and every value of that width", "why_tests_cant": "Widths and values are unbounded; a test samples a few strings.", "anchors": ["network/address/address-little-endian.h: Address::ToString"]}
{"id": "C88", "title": "Firing a record through a logger leaves the caller's record unchanged", "statement": "The record that a caller passes by value to Logger::Fire shows the same values to the caller, and to other sinks holding it, after the call as before it.", "quantifier": "every record, every set of pending values, every filter", "why_tests_cant": "the leak shows only through another copy of the record, for names that are pending and absent", "anchors": ["log/logger.h: Fire", "log/detail/log-pending-value-pool.h: Apply", "log/log-record.h: LogRecord copy constructor"]}
{"id": "C89", "title": "A stream sink writes an accepted record once to every added stream and file", "statement": "After any calls of AddStream and AddFile, Fire formats an accepted record exactly once on each added stream and file, in the order in which they were added.", "quantifier": "every sequence of AddStream and AddFile calls, every growth policy of the vector", "why_tests_cant": "pointers into a vector that reallocates; depends on the number of files and the library", "anchors": ["log/log-stream-sink.h: AddStream, AddFile, Fire"]}
{"id": "C90", "title": "A test run executes the registered cases in order up to the first fatal failure", "statement": "When the test runner runs a tree of suites (and no fatal failure happened before), it starts the cases of a suite before those of its child suites, each in the order of registration, each exactly once; the expressions of assertions are evaluated in that order; after the first failing ASSERT no further assertion is evaluated, neither in the same case nor later, and no further case is started; without a failing ASSERT every case is started and every assertion is evaluated.", "quantifier": "every tree of suites and cases (any depth, any number of children), every combination of outcomes and levels of the assertions in the bodies, and every earlier state of the runner in which the stop flag is clear", "why_tests_cant": "the framework is what runs the tests: a defect here makes other tests pass by not running; the number of trees and outcome patterns is unbounded", "anchors": ["test/runner.h: Runner::Run, RunSuite, RunCase, CommitResult", "test/suite.h: Suite::VisitCases, VisitSuites", "test/tool.h: NSFX_TEST_PREDICATE_IMPL, NSFX_TEST_COMPARE_IMPL"]}
{"id": "C91", "title": "Every run reports the failures of that run", "statement": "The total printed at the end of a run is the number of assertions that this run evaluated and found false, for the first run and for any later run on the same runner; and a later run executes the cases again.", "quantifier": "every program (sequence of registrations with bodies) and every number of consecutive runs", "why_tests_cant": "a test of the runner sees one number for one program; the property relates the counter to the outcomes of arbitrary programs over arbitrarily many runs", "anchors": ["test/runner.h: Runner::Run, ShowSummary, CommitResult", "test/suite.h: Suite::GetNumberOfFailures", "test/case.h: Case::AddResult"]}
{"id": "C92", "title": "Progress lines are increasing and end at 100% exactly when everything ran", "statement": "During a run of n cases the progress lines are exactly the multiples of ten first reached after each finished case; they are strictly increasing, between 10 and 100, and the last is 100 exactly when all n > 0 cases were started.", "quantifier": "every number of cases and every point at which the run stops", "why_tests_cant": "the rounding is different for every number of cases; a test fixes one number", "anchors": ["test/runner.h: Runner::ShowProgress, RunCase, Run"]}
{"id": "C93", "title": "Every registered test case is run", "statement": "After any interleaving of registrations of suites and cases, from any number of files that open the same suites, the cases a run visits in a suite are exactly the cases registered in it, in the order of registration.", "quantifier": "every sequence of registrations: every path, name and interleaving", "why_tests_cant": "the order of static initialisation differs between builds; tests see the one order their linker chose", "anchors": ["test/suite.h: Suite::AddSuite, AddCase", "test/builder.h: NSFX_TEST_SUITE_IMPL, NSFX_TEST_CASE_IMPL"]}
{"id": "C94", "title": "The test log attributes every failure to its suite and case", "statement": "Reading the log of a run by its headings and their indentation yields every failed assertion the run evaluated, in order, each with the path of the suite and the name of the case it occurred in, and nothing else, although headings of a suite are printed only when the suite changes.", "quantifier": "every tree of suites, every pattern of failures, messages and progress lines in between", "why_tests_cant": "the attribution depends on which heading was printed last, hence on the whole history of failures", "anchors": ["test/runner.h: Runner::ShowResult, ShowMessage, ShowProgress", "test/suite.h: Suite::GetDepth"]}
{"id": "C95", "title": "Consecutive failures do not repeat their headings", "statement": "A failure in the same suite as the previous failure is shown without the headings of the suite, and a failure in the same case as the previous failure is shown without the heading of the case.", "quantifier": "every two consecutive failures, in every state of the runner", "why_tests_cant": "the output of the framework is not an input of its own tests; the property concerns every pair of failures", "anchors": ["test/runner.h: Runner::ShowResult, prevSuite_, prevCase_"]}
{"id": "C96", "title": "Copies of a fixed buffer share their bytes; the size never changes", "statement": "A copy-constructed FixedBuffer (or ConstFixedBuffer) shows the same bytes and size as its source now and after any later sequence of operations on any buffers, writes through either included, for as long as neither of the two is assigned to, swapped, moved from or destroyed. The size of a buffer never changes over such a history. A write changes exactly the written range of its buffer, and every other buffer afterwards either shows the same bytes as the written one or is unchanged.", "quantifier": "every history of constructions, copies, moves, assignments, swaps, destructions and writes on any number of buffers, with any sizes and data", "why_tests_cant": "The equality must survive every later history of all other objects; tests exercise a few fixed call sequences.", "anchors": ["network/buffer/fixed-buffer.h: FixedBuffer(const FixedBuffer&), operator=, begin, end, GetSize", "network/buffer/const-fixed-buffer.h: ConstFixedBuffer"]}
{"id": "C97", "title": "A constructed or deep-copied fixed buffer is independent of all other buffers", "statement": "Constructing a FixedBuffer by size, with zero initialisation, or as a deep copy gives a buffer of the requested size (holding zeros, respectively the source's bytes), and its bytes are not changed by any later sequence of operations that does not use that very buffer, such as writes to the source of the deep copy.", "quantifier": "every reachable state, every constructor, every later history not using the new buffer", "why_tests_cant": "Isolation is a statement about all later histories, with any aliasing among the other buffers.", "anchors": ["network/buffer/fixed-buffer.h: FixedBuffer(size_t), FixedBuffer(size_t, bool), FixedBuffer(const ConstBuffer&)"]}
{"id": "C98", "title": "Fixed-buffer storage lives exactly as long as a buffer refers to it", "statement": "From every reachable state an operation is free of undefined behaviour exactly when the named buffers exist and a write stays within the buffer. A storage is allocated exactly while some buffer refers to it, its count is the number of those buffers, and nothing is left allocated once every buffer is empty. Moving transfers the bytes and leaves the source empty.", "quantifier": "every reachable state and every operation, self-assignment and self-swap included", "why_tests_cant": "Leaks and use after free show up only along particular sequences of sharing, self-assignment and destruction; there are infinitely many.", "anchors": ["network/buffer/fixed-buffer.h: Acquire, Release, operator=, swap, ~FixedBuffer", "network/buffer/storage/basic-buffer-storage.h: AddRef, Release"]}
{"id": "C99", "title": "CopyTo of a fixed buffer copies the leading bytes and reports their number", "statement": "CopyTo(dst, size) into a block of at least size bytes copies the first min(size, GetSize()) bytes, returns that number, and leaves the rest of the block unchanged.", "quantifier": "every reachable buffer, every block and every size", "why_tests_cant": "All sizes on both sides of the buffer's size, and empty buffers, in all reachable states.", "anchors": ["network/buffer/fixed-buffer.h: CopyTo"]}
{"id": "C100", "title": "Durations multiply, divide and negate like exact lengths of time", "statement": "d*n is exactly n times as long as d; d/n is the exact quotient truncated toward zero to the unit of d; for durations of any two units a = (a/b)*b + a%b exactly, with |a%b| < |b| and a%b of the sign of a; -d is the exact opposite; each is defined exactly when the result is representable and the divisor not zero. a+=b, a-=b and a%=b have the effect of a=a+b, a=a-b and a=a%b.", "quantifier": "every pair of 64-bit counts, every pair of decimal units, every 64-bit factor", "why_tests_cant": "2^128 operand pairs for each pair of units, with rounding, sign and overflow boundaries.", "anchors": ["chrono/duration.h: operator*, operator/, operator%, unary operator-, operator+=, operator-=, operator%=, Minutes, Hours, Days"]}
{"id": "C101", "title": "The text of a duration or time point determines it", "statement": "ToString is defined for every count other than the minimum, and two durations of the same unit (or two virtual time points) with the same text are equal: no information is lost by the days/clock/sub-second format. The text is: a minus sign iff the value is negative, the days and a blank iff there are any, hh:mm:ss, and per third power of ten down to the unit a dash, three digits and the letter of the unit; the fields are in their natural ranges and add up to the absolute value.", "quantifier": "every pair of 64-bit counts other than the minimum, every decimal unit down to attoseconds", "why_tests_cant": "Injectivity compares all pairs of 2^64 texts for each of nineteen units.", "anchors": ["chrono/duration.h: ToString, Split", "chrono/virtual-time-point.h: ToString"]}
{"id": "C102", "title": "A message of many fields reads back as it was written", "statement": "A sequence of values (arithmetic values and arrays of any width, durations, time points, sequence numbers, addresses), each written in native, little-endian or big-endian order one behind the other, occupies exactly the sum of the field sizes, changes no other byte, and reading variables of the same types in the same orders from the same place gives every value back, whatever the variables held before; on another host too if no field is in native order. The same holds on a zero-compressed buffer whenever the writes are accepted, and they are accepted in front of and behind the zero area.", "quantifier": "every list of fields of every type, width, length and value; every order per field; every iterator with room; both host byte orders; both kinds of buffer", "why_tests_cant": "The tests write one field of each type into a fresh buffer; messages are arbitrary sequences at arbitrary offsets on either kind of host.", "anchors": ["network/buffer/io/arithmetic-io.h: Write, WriteL, WriteB, Read, ReadL, ReadB", "network/buffer/io/duration-io.h", "network/buffer/io/time-point-io.h", "network/buffer/io/address-io.h", "utility/circular-sequence-number.h: Write, Read", "network/buffer/iterator/buffer-iterator.h", "network/buffer/iterator/zc-buffer-iterator.h"]}
{"id": "C103", "title": "A message reads the same from a zero-compressed buffer and from its plain copy", "statement": "Reading any sequence of variables in any orders from any place of a zero-compressed buffer gives the same values and advances the iterator by as much as reading them from the same place of a plain buffer with the same bytes; where the bytes do not suffice, both refuse.", "quantifier": "every zero-compressed buffer (any header, zero area, trailer), every cursor, every list of variables, types and orders, both hosts", "why_tests_cant": "The boundaries of the zero area can fall anywhere inside any field of any message.", "anchors": ["network/buffer/io/*.h", "network/buffer/iterator/zc-buffer-iterator.h: ReadInOrder", "network/buffer/iterator/buffer-iterator.h: ReadInOrder"]}
{"id": "C104", "title": "Messages have the documented format on the wire", "statement": "The bytes a sequence of written values leaves from the cursor on are the bytes of their numbers in the order of the fields and of the elements of arrays: least significant byte first for little-endian, most significant first for big-endian, the host's order for native; durations and time points (tenths of nanoseconds) as eight bytes in two's complement, sequence numbers and addresses in as many bytes as their bits need.", "quantifier": "every list of fields of every type, width, length and value; every order per field; every iterator with room; both host byte orders; both kinds of buffer", "why_tests_cant": "A wrong format that writer and reader share passes every round trip; the value at each byte must be fixed for all values, including negative counts and words that straddle the zero area.", "anchors": ["network/buffer/io/*.h", "network/buffer/iterator/basic-buffer-iterator.h: WriteInOrder, WriteReversely", "network/buffer/iterator/zc-buffer-iterator.h", "utility/circular-sequence-number.h: Write"]}
{"id": "C105", "title": "BiArray is a fixed-length sequence indexed from I", "statement": "Every array keeps the length it was made with (copies and assignments take the length of the source, moves leave the source empty, swaps exchange), at(i) reads and writes exactly element i for i in I..I+size-1 and nothing else is accessible, front/back, the iterators and the reverse iterators see the same sequence, fill sets every element, copies are independent, and when all arrays are gone no memory and no element is left.", "quantifier": "every history of constructions, copies, moves, swaps, assignments, fills, element writes and destructions over any number of arrays, every index base and length", "why_tests_cant": "Ownership and life times of the elements depend on the whole history of copies, moves and swaps.", "anchors": ["utility/bi-array.h"]}
{"id": "C106", "title": "as_hex prints exactly the value's bits and leaves the stream alone", "statement": "Printing as_hex(v) for an integer of 1, 2, 4 or 8 bytes emits 0x and two hexadecimal digits per byte, most significant first, with a backtick between the halves of eight bytes, for every state of the stream; the text determines the value; the stream formats later numbers as before.", "quantifier": "every value of every integer width and signedness, every formatting state of the stream", "why_tests_cant": "2^64 values and every combination of stream flags left behind by earlier output.", "anchors": ["utility/hex-output.h: as_hex, operator<<"]}
{"id": "C107", "title": "Closeness assertions pass exactly when the values are close", "statement": "NSFX_TEST_EXPECT_AC(a, l, t) passes iff |a - l| <= t, and NSFX_TEST_EXPECT_RC(a, l, t) iff |a - l| <= |l * t|, whatever the arithmetic type.", "quantifier": "every operand of every signed, unsigned or floating-point type", "why_tests_cant": "The differences wrap or overflow only for particular pairs of operands, and NaN compares false with everything.", "anchors": ["test/tool.h: AssertionChecker AC, RC"]}
{"id": "C108", "title": "CreateEventSink hands over a live sink owned by the caller", "statement": "The pointer returned by CreateEventSink refers to a new live sink object, holds the only reference to it, and changes no other object; with a controller, the sink lives as long as the returned pointer and the controller keep it.", "quantifier": "every heap of objects and smart pointers at the call, with and without a controller", "why_tests_cant": "Whether the returned pointer dangles depends on the order in which temporaries are released in every possible heap; a dangling pointer often still works by luck in a test.", "anchors": ["event/event-sink.h: CreateEventSink, EventSinkCreator::operator()", "component/ptr.h: move constructor from another interface", "component/object.h: AggObject"]}
{"id": "C109", "title": "A log filter or formatter owns the functor it was made from", "statement": "A filter made by CreateLogFilter, or a formatter made by CreateLogFormatter, decides or prints as the given functor did when the object was made: what later happens to the functor given, or to other filters made from it, does not matter.", "quantifier": "every functor, with any state and side effects on it; every history of declaring, changing and ending functors and of making, calling and destroying filters, in any order", "why_tests_cant": "Tests pass lambdas directly; the difference shows only in histories in which a named functor changes, is shared or ends before the filter.", "anchors": ["log/create-log-filter.h: CreateLogFilter, FunctorBasedLogFilter", "log/create-log-formatter.h: CreateLogFormatter, FunctorBasedLogFormatter"]}
{"id": "C110", "title": "A log statement fires exactly one complete record, and nothing when disabled", "statement": "NSFX_LOG(l) << a << b and NSFX_LOG_LEVEL(l, s) << a << b terminate; if l is an extended log sink that is disabled, no operand is evaluated and nothing is fired; otherwise the operands are evaluated once each in order in the scope of the caller, and exactly one record with their text, the severity and the enabled place values is fired, or nothing if an operand throws.", "quantifier": "every list of operands with any side effects and exceptions, every sink behaviour including throwing sinks, every state of the program, every configuration of the macros", "why_tests_cant": "The statement hides two nested loops; tests run a few fixed statements on an enabled logger and cannot range over operands that throw, change the program or name any variable.", "anchors": ["log/log-tool.h: NSFX_LOG, NSFX_LOG_LEVEL, MakeLogRecord, MakeLogRecordWithSeverity, CommitLogRecord", "log/i-log.h: IsLogSinkEnabled, MakeLogSinkTag"]}
{"id": "C111", "title": "A protocol stack delivers every header and the payload", "statement": "If headers are added to a packet layer by layer, each by AddHeader(size) and by writing a message of that size from begin() of the returned buffer, then the packet holds the wire formats of all layers, the outermost first, followed by what it held before, with all tags on the same bytes; and whoever holds a packet with these bytes and, layer by layer, reads a message of the same types from begin() of GetBuffer() and removes the bytes read, gets exactly the fields that were written and is left with exactly the payload, also on a host of the other byte order if no field is in native order. Adding a layer and reading a layer never fail.", "quantifier": "every stack of layers, every message of every field type, order and value per layer, every packet in every reachable state (including shared, fragmented, reassembled and null packets), every interleaving with operations on other packets that do not write into buffers", "why_tests_cant": "Each test builds one packet by hand; the storage may move, be copied or be shared at each layer depending on the history, which has no bound.", "anchors": ["network/packet/packet.h: Packet::AddHeader, RemoveHeader, GetBuffer", "network/packet/packet-buffer.h: PacketBuffer", "network/buffer/buffer.h: begin, cbegin", "network/buffer/io: Write, Read"]}
{"id": "C112", "title": "The engines have the documented period", "statement": "From any state that is not all zero, the state of every xoshiro engine and of every two-word xoroshiro engine returns to itself exactly after the multiples of 2^n - 1 steps, where n is the size of the state in bits, and passes through every other state but zero in between; the numbers the caller gets, from the integer engines and from the floating-point engines, repeat with period exactly 2^n - 1. For the 64-bit engines this holds from every seed.", "quantifier": "every state that is not all zero, every seed of the 64-bit engines, every engine type but xoroshiro1024, and every candidate period", "why_tests_cant": "The documented periods are 2^64 - 1 to 2^512 - 1 steps; no run can reach them, and a shorter period or a wrong constant would not show in any sample.", "anchors": ["random/pseudo-random-generator.h: Xoshiro256Plus01Engine, Xoshiro256StarstarEngine, Xoshiro128Plus01Engine, Xoshiro128StarstarEngine", "random/engine/xoshiro-engine.h: transform", "random/engine/xoroshiro-engine.h: transform"]}
{"id": "C113", "title": "Over a period every output value occurs equally often", "statement": "Over one period of an engine, every integer value occurs exactly 2^(n-w) times (n bits of state, w bits of output) except that zero occurs once less; every value k/2^24 or k/2^53 of a floating-point engine occurs exactly 2^(n-24) or 2^(n-53) times, zero once less.", "quantifier": "every state that is not all zero, every output value and every engine type but xoroshiro1024", "why_tests_cant": "Counting occurrences over 2^64 to 2^512 outputs is out of reach, and samples cannot tell an exact from an approximate frequency.", "anchors": ["random/engine/xoshiro-engine.h: operator(), uint_to_real", "random/engine/xoroshiro-engine.h: operator(), uint_to_real"]}
{"id": "C114", "title": "A distribution keeps its engine alive", "statement": "No call on a distribution ever reaches a destroyed engine: an engine lives on after the last user pointer to it is released as long as a distribution created from it lives, and it is destroyed when neither is left.", "quantifier": "every history of creating, copying, releasing and using engines and distributions, in any number and order", "why_tests_cant": "A use after destruction needs a particular order of releases among any number of pointers, and may go unnoticed when it happens.", "anchors": ["random/pseudo-random-generator.h: PseudoRandomEngine, Create*Distribution", "random/distribution/std-*-distribution.h: rng_", "component/object.h: Object::Release"]}
{"id": "C115", "title": "Distributions sharing an engine take its outputs one after the other", "statement": "However the calls of any number of distributions, one-shot generators, Generate and Discard on one engine are interleaved, the outputs of the engine are handed out consecutively: each call sees the outputs following those taken by the calls before it, so none is used twice and none is skipped; Discard(z) takes exactly z.", "quantifier": "every history that does not reseed the engine, every number of distributions, every interleaving with other engines", "why_tests_cant": "There are unboundedly many interleavings, and a distribution working on a copy of the engine shows only as a repeated value far apart.", "anchors": ["random/pseudo-random-generator.h: Generate, Discard, Generate*, GetRng", "random/distribution/std-*-distribution.h: Generate"]}
{"id": "C116", "title": "Engines do not influence one another", "statement": "In any history over many engines, the results of the calls on one engine and its distributions are those of making these calls alone.", "quantifier": "every history over any number of engines and distributions, and every engine in it", "why_tests_cant": "A hidden shared state shows only for particular interleavings among unboundedly many.", "anchors": ["random/pseudo-random-generator.h: PseudoRandomEngine::rng_", "random/distribution/std-*-distribution.h: dist_"]}
{"id": "C117", "title": "Seeding an engine and resetting its distributions replays a run", "statement": "After Seed(v) on an engine and Reset of the distributions created from it, any calls on the engine, these distributions and new ones give the same results (and fail in the same way), whatever happened before.", "quantifier": "every two pasts of the engine and its distributions, every seed and every sequence of calls afterwards", "why_tests_cant": "The past is unbounded; leftover state such as a value kept by a distribution shows only after particular pasts.", "anchors": ["random/pseudo-random-generator.h: Seed, Create*Distribution, Generate*", "random/distribution/std-*-distribution.h: Generate, Reset", "random/engine/xoshiro-engine.h: seed"]}
{"id": "C118", "title": "A one-shot generator call equals creating a distribution and drawing once", "statement": "Generate*(params) returns what a distribution created with the same parameters would return, takes the same outputs of the engine and leaves the same objects alive.", "quantifier": "every engine state, every kind of distribution and every admissible parameters", "why_tests_cant": "Sampling compares finitely many states and parameters.", "anchors": ["random/pseudo-random-generator.h: Create*Distribution, Generate*"]}
{"id": "C119", "title": "The engines take 64-bit seeds", "statement": "As documented, the xoshiro engines are seeded by 64-bit values: Seed and the constructor distinguish all of them. (The code does so only for the constructor of the 64-bit engines: Seed takes 32 bits, and the 32-bit engines drop the upper half of a seed given to the constructor.)", "quantifier": "every seed value, every engine and every state before seeding", "why_tests_cant": "2^64 seeds; a lost half of the seed shows only between seeds that differ in it.", "anchors": ["random/pseudo-random-generator.h: PseudoRandomEngine(uint64_t), Seed", "random/i-pseudo-random-engine.h: Seed", "random/engine/xoshiro-engine.h: seed"]}
{"id": "C120", "title": "Creating a distribution accepts exactly the documented arguments", "statement": "Create*Distribution fails an assertion exactly for arguments outside the documented ranges. (The code does not: a Laplace distribution with a mean that is not positive is refused.)", "quantifier": "every kind of distribution and every arguments, finite numbers", "why_tests_cant": "A wrong boundary concerns single points of a continuum of arguments.", "anchors": ["random/pseudo-random-generator.h: Create*Distribution", "random/i-random.h: IRandom"]}
{"id": "C121", "title": "Operations on read-only buffers change no bytes of any buffer", "statement": "Whatever was done before with Buffer and ConstBuffer objects, any sequence of operations on ConstBuffer objects (construction from a Buffer, copy, move, assignment, swap, destruction, MakeFragment, MakeRealBuffer, Realize) behaves as if every buffer had its own bytes: copies and fragments read as what they were made of, and every other buffer of either kind keeps its bytes. None of these operations is undefined, given fragments within the buffer. Being read-only cannot be lost: an operation is accepted only on operands of the right kind, never changes the kind of a buffer, and a buffer made by an operation of the read-only class is read-only. A buffer of either kind can be appended or prepended to a writable one.", "quantifier": "every history of operations on any number of buffers of both kinds, every sequence of read-only operations after it", "why_tests_cant": "A test checks one sharing pattern; the claim ranges over every history of operations on buffers of both kinds and every later sequence of operations.", "anchors": ["network/buffer/const-buffer.h: ConstBuffer", "network/buffer/buffer.h: Buffer::MakeFragment"]}
{"id": "C122", "title": "A read-only buffer is a snapshot", "statement": "The bytes of a ConstBuffer stay the same until it is itself assigned, moved from, swapped or destroyed, whatever is done with the buffer it was made from and with all other buffers, data added by size and written later or written through iterators into existing data excepted.", "quantifier": "every history, every continuation, every read-only buffer", "why_tests_cant": "A test checks one sharing pattern; the claim ranges over every history of operations on buffers of both kinds and every later sequence of operations.", "anchors": ["network/buffer/const-buffer.h: ConstBuffer", "network/buffer/buffer.h: Buffer::AddAtStart, Buffer::AddAtEnd"]}
{"id": "C123", "title": "Operations on read-only zero-compressed buffers change no bytes of any buffer", "statement": "As C121, for ConstZcBuffer and ZcBuffer: any sequence of operations on ConstZcBuffer objects, including MakeRealBuffer and Realize, gives each buffer the bytes that the operations say and leaves every other buffer alone; objects that were moved from may hold anything. Being read-only cannot be lost: an operation is accepted only on operands of the right kind, never changes the kind of a buffer, and a buffer made by an operation of the read-only class is read-only. A buffer of either kind can be appended or prepended to a writable one.", "quantifier": "every history of operations on any number of buffers of both kinds, every sequence of read-only operations after it", "why_tests_cant": "A test checks one sharing pattern; the claim ranges over every history of operations on buffers of both kinds and every later sequence of operations.", "anchors": ["network/buffer/const-zc-buffer.h: ConstZcBuffer", "network/buffer/zc-buffer.h: ZcBuffer::MakeFragment, ZcBuffer::Realize"]}
{"id": "C124", "title": "A read-only zero-compressed buffer is a snapshot", "statement": "The bytes of a ConstZcBuffer stay the same until it is itself assigned, moved from, swapped or destroyed (Realize keeps them), whatever is done with the buffer it was made from and with all other buffers, writes through iterators into existing data excepted.", "quantifier": "every history, every continuation, every read-only buffer", "why_tests_cant": "A test checks one sharing pattern; the claim ranges over every history of operations on buffers of both kinds and every later sequence of operations.", "anchors": ["network/buffer/const-zc-buffer.h: ConstZcBuffer", "network/buffer/zc-buffer.h: ZcBuffer::AddAtStart, ZcBuffer::AddAtEnd"]}
{"id": "C125", "title": "With zero-compressed buffers, operations on a packet never change its copies", "statement": "When packets are configured to keep their bytes in zero-compressed buffers, every operation on one Packet (adding headers and trailers by size, by buffer or by packet, removing them, writing into the area that was just added, tagging, making fragments, copying, assigning, destroying) leaves the bytes, byte tags and packet tags seen through every other Packet unchanged.", "quantifier": "every history of operations on any number of packets sharing bodies and on any number of client buffers", "why_tests_cant": "Whether an added header may go into shared storage is decided by the whole history of everybody who ever held that storage.", "anchors": ["network/packet/packet-buffer.h: NSFX_PACKET_USES_ZERO_COMPRESSED_BUFFER", "network/packet/packet.h: MakePrivate, AddHeader, AddTrailer, RemoveHeader, RemoveTrailer, MakeFragment, CopyTagsFrom", "network/buffer/zc-buffer.h: AddAtStart, AddAtEnd, MakeFragment"]}
{"id": "C126", "title": "With zero-compressed buffers, removing a header or trailer undoes adding it", "statement": "When packets keep their bytes in zero-compressed buffers, AddHeader(n) (or AddTrailer(n)), writes into the returned area, anything balanced, and RemoveHeader(n) (or RemoveTrailer(n)) restore the packet's size, bytes, byte tags and packet tags, to any depth of nesting and whatever happens to other packets meanwhile short of storing bytes in them and of CopyTagsFrom, in programs that make no deep copies of other kinds of buffers also if bytes are stored in other packets; adding any size and removing up to GetSize() bytes is always defined.", "quantifier": "every reachable state, every n, every nesting of headers and trailers, every interleaving with operations on other packets", "why_tests_cant": "The nesting depth, sizes, contents and the place of the zero area are unbounded.", "anchors": ["network/packet/packet.h: AddHeader, RemoveHeader, AddTrailer, RemoveTrailer", "network/buffer/zc-buffer.h: AddAtStart, AddAtEnd, RemoveAtStart, RemoveAtEnd, MakeFragment"]}
{"id": "C127", "title": "With zero-compressed buffers, packet operations do exactly what they say to bytes and tags", "statement": "When packets keep their bytes in zero-compressed buffers, AddHeader/AddTrailer with a size, a buffer or a packet (also the packet itself) give the concatenation of the added bytes and the packet's bytes; RemoveHeader/RemoveTrailer drop exactly the requested bytes; MakeFragment(start, size) is a packet of exactly the bytes [start, start+size); every byte kept keeps its byte tags and packet tags, and every tagged byte of an added packet is tagged with the same id in the result.", "quantifier": "every reachable state of any number of packets sharing bodies, every operation and argument", "why_tests_cant": "the effect depends on which bodies and storages are shared and where the zero areas are, i.e. on the whole history", "anchors": ["network/packet/packet.h: AddHeader, AddTrailer, RemoveHeader, RemoveTrailer, MakeFragment", "network/buffer/zc-buffer.h: CopyTo"]}
{"id": "C128", "title": "With zero-compressed buffers, packets are always usable and their tag lists track exactly their bytes", "statement": "When packets keep their bytes in zero-compressed buffers, in every history copying, moving, assigning, swapping, destroying packets and adding packets to packets never touches a released body; RemoveHeader/RemoveTrailer succeed exactly for sizes up to GetSize(), a tag can be added exactly to a nonempty range within the packet, and AddByteTag tags exactly the bytes of the range that have no tag of that id yet, leaving bytes and other tags alone.", "quantifier": "every history of packet operations over any number of packets", "why_tests_cant": "reference counts and the agreement of three separately resized parts depend on the whole history", "anchors": ["network/packet/packet.h: Packet, AddRef, Release, MakePrivate, AddByteTag, AddPacketTag, RemoveHeader, RemoveTrailer"]}
{"id": "C129", "title": "A protocol stack on zero-compressed buffers delivers every header and the payload", "statement": "With packets of zero-compressed buffers: if headers are added layer by layer, each by AddHeader(size) and by writing a message of that size from begin() of the returned buffer, then every write is accepted, the packet holds the wire formats of all layers, the outermost first, followed by what it held before, with all tags on the same bytes; and whoever holds a packet with these bytes, wherever it keeps compressed zeros (also inside a header), and reads a message of the same types from begin() of GetBuffer() and removes the bytes read, layer by layer, gets exactly the fields that were written and is left with exactly the payload, also on a host of the other byte order if no field is in native order.", "quantifier": "every stack of layers, every message of every field type, order and value per layer, every packet in every reachable state with buffers and storages below 2^63 bytes, every placement of the compressed zeros, every interleaving with operations on other packets that do not write into buffers", "why_tests_cant": "Whether a write is accepted depends on where the boundary of the (possibly empty) zero area of the returned buffer lies, and whether a read crosses the zero area depends on the packet's whole history; both range over unboundedly many histories.", "anchors": ["network/packet/packet.h: Packet::AddHeader, RemoveHeader, GetBuffer", "network/packet/packet-buffer.h: PacketBuffer", "network/buffer/zc-buffer.h: begin, cbegin, MakeFragment", "network/buffer/iterator/zc-buffer-iterator.h: Write, Read", "network/buffer/io: Write, Read"]}
{"id": "C130", "title": "Headers and trailers of a protocol stack are delivered", "statement": "If layers are put around what a packet holds, each either in front by AddHeader(size) or behind by AddTrailer(size), and a message of that size is written from begin() of the returned buffer, then the packet holds the wire formats of all layers around what it held before, nested in the order in which they were added, with all tags on the same bytes; and whoever holds a packet with these bytes and takes the layers off again, reading a header from begin() of GetBuffer() and a trailer from cend() moved back by its size, and removing it with RemoveHeader or RemoveTrailer, gets exactly the fields that were written and is left with exactly the payload, also on a host of the other byte order if no field is in native order. None of these operations fails.", "quantifier": "every sequence of headers and trailers, every message of every field type, order and value, every packet in every reachable state, every interleaving with operations on other packets that do not write into buffers", "why_tests_cant": "Headers and trailers compete for the same storage, which may move, be copied or be shared at each layer depending on an unbounded history.", "anchors": ["network/packet/packet.h: Packet::AddHeader, AddTrailer, RemoveHeader, RemoveTrailer, GetBuffer", "network/buffer/buffer.h: begin, cbegin, cend", "network/buffer/iterator/buffer-iterator.h: MoveBackward", "network/buffer/io: Write, Read"]}
{"id": "C131", "title": "Headers and trailers of a protocol stack on zero-compressed buffers are delivered", "statement": "The same with packets of zero-compressed buffers: every write of a message from begin() of the buffer returned by AddHeader(size) or AddTrailer(size) is accepted, the packet holds the wire formats of all layers around what it held before, with all tags on the same bytes, and whoever takes the layers off again, wherever the packet keeps compressed zeros (also inside a header or trailer), gets exactly the fields that were written and is left with exactly the payload.", "quantifier": "every sequence of headers and trailers, every message of every field type, order and value, every packet in every reachable state with buffers and storages below 2^63 bytes, every placement of the compressed zeros, every interleaving with operations on other packets that do not write into buffers", "why_tests_cant": "A write is refused when it straddles the boundary of a zero area, even an empty one; where that boundary lies in the returned buffer, and where a read crosses compressed zeros, depends on the whole history of the packet.", "anchors": ["network/packet/packet.h: Packet::AddHeader, AddTrailer, RemoveHeader, RemoveTrailer, GetBuffer", "network/buffer/zc-buffer.h: begin, cbegin, cend, MakeFragment", "network/buffer/iterator/zc-buffer-iterator.h: MoveBackward, Write, Read", "network/buffer/io: Write, Read"]}
{"id": "C132", "title": "A distribution is made of exactly the parameters added before its creation", "statement": "A discrete, piecewise constant or piecewise linear distribution created from a parameter object is made of exactly the bounds and weights that were given to that object before the creation, in the order they were given; later additions, and calls on other parameter objects, do not change it. Creation succeeds exactly when the object exists and, for a piecewise constant one, its lower bound has been set. A weight is accepted exactly by a discrete object, a lower bound exactly once by a piecewise constant one, an interval exactly after the lower bound and above the last bound, a bound exactly above the last bound of a piecewise linear one, each only with a non-negative weight and below the limit of 2^32 - 1 entries. Every distribution has bounds each below the next, non-negative weights, and one weight for each interval (constant) or bound (linear), and the 32-bit counts never wrap.", "quantifier": "every sequence of creations of parameter objects of the three kinds, additions to any of them and creations of distributions from any of them, every type of numbers with any comparison (also one that is not total, such as IEEE doubles with NaN), any number of entries up to the limit", "why_tests_cant": "Tests build a few short parameter lists; the interleavings of additions and creations, and the lists near 2^32 entries where a 32-bit count plus one could wrap to zero, cannot be enumerated or even allocated in a test.", "anchors": ["random/distribution/i-discrete-distribution.h: DiscreteDistributionParam", "random/distribution/i-piecewise-constant-distribution.h: PiecewiseConstantDistributionParam", "random/distribution/i-piecewise-linear-distribution.h: PiecewiseLinearDistributionParam", "random/distribution/std-discrete-distribution.h: StdDiscreteDistribution, Iterator", "random/distribution/std-piecewise-constant-distribution.h: StdPiecewiseConstantDistribution, BoundIterator, WeightIterator", "random/distribution/std-piecewise-linear-distribution.h: StdPiecewiseLinearDistribution, BoundIterator, WeightIterator"]}
{"id": "C133", "title": "An exception of a sink does not disturb the simulation", "statement": "If the sink of an event throws, the exception leaves Run, RunUntil or RunFor; the user may catch it, schedule, cancel, and run again. Then no event is lost: each scheduled event is still in the scheduler unless its sink was called or it was cancelled; no sink is called after its event was cancelled; no event is fired twice; the handle of the event whose sink threw does not report that the event is running; and the three schedulers behave alike. Without exceptions everything is as in C21-C33.", "quantifier": "every program of sinks (what each does and whether it throws may depend on everything seen so far), every history of user operations with exceptions caught and ignored, every number of loop iterations, all three schedulers, every correct push_heap/pop_heap", "why_tests_cant": "which sink throws and when, and what the user does between the exception and the next run, are unbounded; the effect shows only in later runs", "anchors": ["simulation/event-handle.h: EventHandle::Fire", "simulation/list-scheduler.h: ListScheduler::FireAndRemoveNextEvent", "simulation/set-scheduler.h: SetScheduler::FireAndRemoveNextEvent", "simulation/heap-scheduler.h: HeapScheduler::FireAndRemoveNextEvent", "simulation/simulator.h: Simulator::Run, Simulator::RunUntil"]}
{"id": "C134", "title": "A throwing element constructor leaves vectors usable and leaks nothing", "statement": "If the copy constructor of an element throws during a call of BiVector (constructors, copy assignment, assign, push_back), the exception reaches the caller, and afterwards every vector can still be read, cleared and destroyed, and when all vectors have been destroyed, no memory and no element is left.", "quantifier": "every history of legal calls on any number of vectors, every call that constructs elements, every position of the element whose constructor throws, every continuation", "why_tests_cant": "the position of the exception, the contents and the histories are unbounded, and a leak shows only in what no later call can do", "anchors": ["utility/bi-vector.h: bi_vector_init, bi_vector_copy, bi_vector_assign, bi_vector_push_back, BiVector", "utility/array-tool.h: array_init, array_copy_init, array_destroy"]}
{"id": "C135", "title": "A sink lives while an event calls it", "statement": "While an event calls a sink, the sink object is not destroyed: a sink may create, hold, release, connect and disconnect sinks, itself included, and fire the event again, and still run to its end. The code guarantees this only for sinks whose connection is not disconnected during the call, and for sinks that somebody else holds.", "quantifier": "every capacity, every behaviour of the sinks (which may depend on all calls before), every program around them, every depth of nested fires, every number of steps; events with and without arguments and with a single connection", "why_tests_cant": "the moment at which the last pointer goes away depends on an unbounded interleaving of nested calls, and the use of a destroyed object often goes unnoticed in a test", "anchors": ["event/event.h: Event::Fire, Event::Disconnect, Event::Connect", "event/event-sink.h", "component/ptr.h: Ptr::operator=, Ptr::Release"]}
{"id": "C136", "title": "A sink lives while the scheduler calls it", "statement": "While the sink of a scheduled event is called, the sink object is not destroyed: the sink may schedule and cancel events, its own included. The code guarantees this only for events that are not cancelled during their own call and not fired again inside it, and for sinks that somebody else holds.", "quantifier": "every number of events, every behaviour of the sinks (which may depend on all calls before), every program around them, every depth of nested fires, every number of steps", "why_tests_cant": "the moment at which the last pointer goes away depends on an unbounded interleaving of calls, and the use of a destroyed object often goes unnoticed in a test", "anchors": ["simulation/event-handle.h: EventHandle::Fire, EventHandle::Cancel", "component/ptr.h: Ptr::operator=, Ptr::Release"]}
{"id": "C137", "title": "A sink may run the simulator", "statement": "If a sink calls Run, RunUntil or RunFor, to any depth, then still each event is fired at most once, at the time it was scheduled for; no sink is called after its event was cancelled; no event is lost: each scheduled event is in the scheduler unless its sink was called or it was cancelled; if nobody asks for a time in the past the clock does not go back; and the outer Run comes back only when the scheduler is empty or somebody paused the simulator. If no sink runs the simulator everything is as in C21-C33.", "quantifier": "every program of sinks (what each does may depend on everything seen so far), every history of user operations, every depth of nesting, every moment of the execution, all three schedulers, every correct push_heap/pop_heap", "why_tests_cant": "which sink runs the simulator, how deep, and what is scheduled in between is unbounded", "anchors": ["simulation/simulator.h: Simulator::Run, Simulator::RunUntil, Simulator::RunFor", "simulation/list-scheduler.h: ListScheduler::FireAndRemoveNextEvent", "simulation/set-scheduler.h: SetScheduler::FireAndRemoveNextEvent", "simulation/heap-scheduler.h: HeapScheduler::FireAndRemoveNextEvent", "simulation/event-handle.h: EventHandle::Fire"]}
{"id": "C138", "title": "BiMatrix has the semantics of a value", "statement": "A BiMatrix behaves as a rectangle of values: a copy is equal and independent, assignment replaces, a move or swap transfers and leaves the source empty, writing a cell or filling a row, a column or the whole matrix changes exactly these cells; the layout cannot be seen through at(i,j), front() and back(). Every element is constructed and destroyed exactly once, every block is released exactly once, and nothing is left when all matrices are destroyed.", "quantifier": "every history of calls on any number of matrices, every number of rows and columns, both layouts, every base index, self-assignment included", "why_tests_cant": "sharing between copies, double release and lost elements depend on the history of copies, moves and swaps", "anchors": ["utility/bi-matrix.h: BiMatrix, bi_matrix_init, bi_matrix_copy, bi_matrix_destroy, bi_matrix_fill1, bi_matrix_fill2", "utility/array-tool.h"]}
{"id": "C139", "title": "The sizes of buffers do not overflow", "statement": "The sizes of Buffer and ZcBuffer are 64-bit numbers, but no operation shows it: as long as the sizes can be allocated every operation gives exactly the bytes, sizes and sharing it would give with unbounded sizes, a request that cannot be allocated is refused without touching memory, and RemoveAtStart and RemoveAtEnd with any number beyond the size empty the buffer.", "quantifier": "every history of operations on any number of buffers sharing storages, every 64-bit size and offset argument", "why_tests_cant": "the wrap-around happens only for particular relations between arguments near 2^64 and the offsets that the history of the buffer has left behind; most combinations need more memory than a test machine has", "anchors": ["network/buffer/buffer.h: BasicBuffer::AddAtStart, AddAtEnd, RemoveAtStart, RemoveAtEnd, MakeFragment", "network/buffer/zc-buffer.h: BasicBuffer constructor, AddAtStart, AddAtEnd, RemoveAtStart, RemoveAtEnd, MakeFragment, MakeRealBuffer, CopyTo", "network/buffer/storage/basic-buffer-storage.h: Allocate"]}
{"id": "C140", "title": "A failing allocation or a throwing element leaves arrays and matrices usable and leaks nothing", "statement": "If memory cannot be allocated, or the constructor or the assignment operator of an element throws, during a call of BiArray or BiMatrix, the exception reaches the caller, and afterwards every array and matrix can still be read and destroyed, no two of them share cells, only cells that were assigned before the exception have changed, and when all have been destroyed, no memory and no element is left.", "quantifier": "every history of legal calls on any number of arrays or matrices, both layouts, every base index, every call that allocates, constructs or assigns elements, every position of the element that throws, every continuation", "why_tests_cant": "the position of the exception, the contents and the histories are unbounded; a leak shows only in what no later call can do, and sharing shows only when both owners are destroyed", "anchors": ["utility/bi-array.h: bi_array_init, bi_array_copy, bi_array_fill, BiArray", "utility/bi-matrix.h: bi_matrix_init, bi_matrix_copy, bi_matrix_fill, bi_matrix_fill1, bi_matrix_fill2, BiMatrix", "utility/array-tool.h: array_init, array_copy_init, array_destroy"]}
{"id": "C141", "title": "A packet operation that finds no memory leaves every packet and its tags as they were", "statement": "If memory cannot be allocated while a header, a trailer, another packet, a byte tag or a packet tag is added to a packet, or while tags are inserted into or tag lists are grown or concatenated, the exception reaches the caller, every packet has the bytes it had, every byte has the tags it had, later operations work as if the call had not been made, and the operations that are declared not to throw do not allocate.", "quantifier": "every history of operations on any number of packets, buffers and tag lists, with any number of earlier failures, every operation, every allocation inside it that may fail, both kinds of packet buffer", "why_tests_cant": "the state in which memory runs out and the allocation that fails are unbounded; whether bodies, storages and tag arrays are shared depends on the whole history", "anchors": ["network/packet/packet.h: Packet::MakePrivate, Packet::AddHeader, Packet::AddTrailer, Packet::RemoveHeader, Packet::RemoveTrailer, Packet::MakeFragment, Packet::AddByteTag, Packet::AddPacketTag", "network/packet/tag/basic-tag-list.h: BasicTagList", "network/buffer/buffer.h: Buffer::AddAtStart, Buffer::AddAtEnd", "network/buffer/zc-buffer.h: ZcBuffer::AddAtStart, ZcBuffer::AddAtEnd"]}
{"id": "C142", "title": "Relative times never silently become wrong absolute times", "statement": "With time points and durations of 64 bits: scheduling an event after a delay schedules it exactly that delay after the current time, or throws because that time cannot be represented or is in the past, and then changes nothing. Running for a duration that is not negative never moves the clock backwards. Every time the simulator shows is representable, the three schedulers stay interchangeable, every event that is not cancelled is fired exactly once and in order, and as long as the times stay away from the ends of the range by the longest delay, the simulation is the one over unbounded integers.", "quantifier": "every simulation program, every history of operations, every 64-bit time point and duration, including the largest and smallest, each of the three schedulers", "why_tests_cant": "overflow depends on the clock and the delay together, over all pairs of 64-bit values, and its effect on order and firing on the whole history", "anchors": ["simulation/list-scheduler.h: ListScheduler::ScheduleIn", "simulation/set-scheduler.h: SetScheduler::ScheduleIn", "simulation/heap-scheduler.h: HeapScheduler::ScheduleIn", "simulation/simulator.h: Simulator::RunFor, Simulator::RunUntil", "chrono/virtual-time-point.h: operator+", "chrono/config.h: count_t"]}
{"id": "C143", "title": "A summary computed in double precision is as accurate as its samples allow", "statement": "With every operation rounded to double precision: Min and Max are exactly the least and greatest sample since the last Reset. Count is the number of samples. Sum, the sum of squares and Mean are within a relative error proportional to the number of samples of the exact figures (relative to the sum of magnitudes), and exact for integer samples whose squares add up to at most 2^53. Stddev is a number whenever there are two samples or more, and its square is close to the variance of the samples.", "quantifier": "every rounding to nearest with 53 bits, every history of samples and resets of every length, every rational sample (no overflow, no subnormal results)", "why_tests_cant": "rounding errors depend on every sample, on their order and on their number; a bound has to hold for all of them, and the counter-examples are isolated", "anchors": ["statistics/summary/summary.h: Summary::OnProbe, Summary::Count, Summary::Sum, Summary::Mean, Summary::Stddev, Summary::Min, Summary::Max, Summary::Reset"]}
{"id": "C144", "title": "Events survive sinks that throw and connections for which there is no memory", "statement": "Sinks that an event calls may connect (with or without memory for another connection) and disconnect sinks, fire the same event again to any depth, catch exceptions or not, and throw. An exception of a sink is never swallowed: it ends the Fire that called the sink, at once; the sinks called until then were called in the order of their cookies, none twice and none skipped. Afterwards the event is as connects and disconnects alone would have left it. Fire never uses a null or out-of-range sink and ends if the sinks do not fire the event again. Connect without memory reports ConnectionLimit and changes nothing, and it needs no memory when there have been more connections before. Portainer::Add without memory returns 0 and changes nothing.", "quantifier": "every capacity, every history of connects and disconnects, every program of the sinks including exceptions, handlers, failing allocations and nested firing of any depth", "why_tests_cant": "which sink throws at which depth, with which connections changed in between and which allocation failing, are unboundedly many cases", "anchors": ["event/event.h: Event::Connect, Event::Insert, Event::Fire, Event::Visit", "event/portainer.h: Portainer::Add, Portainer::InternalAdd, Portainer::Visit"]}
{"id": "C145", "title": "Sinks may use the event in their destructors", "statement": "Disconnect may destroy the sink, and its destructor may connect and disconnect sinks of the same event, to any depth. No sink is released twice. Connect in a destructor succeeds when the event has room. Afterwards the cookie given to Disconnect is free, the connections that no destructor removed are as before, and the event is as if the destructor had done what it does before the Disconnect.", "quantifier": "every capacity, every history of connects and disconnects, every behaviour of the destructors, nested to any depth", "why_tests_cant": "the destructors run in the middle of Disconnect, in intermediate states that depend on which other sinks are being destroyed; there are unboundedly many nestings", "anchors": ["event/event.h: Event::Disconnect, Event::Connect, Event::Insert", "component/ptr.h: PtrBase::Reset, Ptr::operator=(nullptr_t)"]}
{"id": "C146", "title": "Networks of loggers pass records on to exactly the sinks behind them", "statement": "Loggers may be registered as sources of other loggers, in any shape without cycles, and sinks may be connected and disconnected and sources registered and unregistered in any order. A logger is enabled exactly if a sink is connected to it or to a logger that has it, directly or through others, as a source. An enabled logger is connected to each source as often as the source is registered with it, any other logger to none. Each such call succeeds, or it is a Connect or RegisterSource that reports ConnectionLimit; no IllegalMethodCall and no endless recursion. A record fired at a logger reaches exactly the sinks of the loggers to which a way of registrations leads on which every filter accepts it; a sink is called once for its own connection and once more for each further way, and never twice if every logger is registered at most once.", "quantifier": "every number and shape of loggers without cycles, every history of Connect, Disconnect, RegisterSource and UnregisterSource in which no call has thrown, every set of accepting filters", "why_tests_cant": "the shapes of networks and the orders in which they are built and taken down are unbounded, and one call cascades through any number of loggers", "anchors": ["log/logger.h: Logger::Connect, Logger::Disconnect, Logger::Fire, Logger::RegisterSource, Logger::UnregisterSource, Logger::IsEnabled", "log/detail/log-source-pool.h: LogSourcePool"]}
{"id": "C147", "title": "A sink sees the record's own values and the pending values of the loggers on its way", "statement": "A record that goes through a network of loggers shows each sink the record's own values and, for other names, the pending value of the first logger on the way from the source to the sink that has one, and no values of loggers that are not on this way. Own values are never replaced, no pending value of a logger on the way is lost, and the delivery never fails. The filter of each logger that gets the record decides about the record with its own values and the pending values of the loggers that have got it until then, this logger included.", "quantifier": "every network of loggers without cycles and every history of building it, every record, every history of pending values at each logger, every order in which hash maps enumerate them, every filters", "why_tests_cant": "what a sink sees depends on the order in which all loggers of the network get the record", "anchors": ["log/logger.h: Logger::Fire", "log/detail/log-pending-value-pool.h: LogPendingValuePool::Apply", "log/log-record.h: LogRecord copy constructor, LogRecord::Add"]}
{"id": "C148", "title": "Reading a log value gives the value or reports a type mismatch", "statement": "Reading a log value with a type gives the stored value if the value was made with that type, and throws LogValueTypeMismatch otherwise; it never uses the value as something it is not. This holds for plain types; if the types differ only in const, volatile or by being a reference, the check passes and the value is used as an object of another class.", "quantifier": "for every type a value is made with and every type it is read with, for every state of the program that a functor reads", "why_tests_cant": "a test reads a few combinations of types, and a wrong cast often happens to work on the machine of the test", "anchors": ["log/log-value.h: LogValue::Get, ITypedLogValue::GetTypeId", "log/make-log-value.h: MakeLogValue, MakeConstantLogValue", "log/detail/log-pending-value-pool.h: LogPendingValuePool::NormalizeLogValue"]}
{"id": "C149", "title": "Positions of tags do not wrap", "statement": "A tag list computes positions in 64-bit unsigned numbers around a middle. As long as no list has tracked more than 2^63 - 1 bytes since it was made (with those of lists added to it, and counting removed ones), every history of operations on any number of lists that share arrays gives the same lists, and every byte carries exactly the tags put on it, as if positions were unbounded; the assertions of the code hold. If sizes and offsets are at most 2^62 the assertions also fail exactly where they should. They do not for larger ones.", "quantifier": "for every number of lists and every history of constructions, copies, assignments, swaps, destructions, growing, cutting, tagging and concatenation, of any sizes", "why_tests_cant": "a test does not let 2^63 bytes go through a list, and the bound depends on the whole history of concatenations", "anchors": ["network/packet/tag/basic-tag-list.h: BasicTagList::AddAtStart, AddAtEnd, RemoveAtStart, RemoveAtEnd, Insert, Get, ExpandBuffer, REF_POINT", "network/packet/tag/basic-tag-index.h: BasicTagIndex::HasTaggedByte"]}
{"id": "C150", "title": "Texts and values of log records live exactly as long as a record or a value holds them", "statement": "However a client makes, copies, moves, assigns and destroys log records and log values, adds and updates named values, and puts records and values into values, no call uses an object that has been destroyed and nothing is destroyed twice. A C string got from a record stays where it is and keeps its characters as long as some record or log value of the client holds its value, directly or inside of another one; it dangles as soon as none does. After Update the record and all records that share its body give the new value, Add keeps the value that the name has; a copied or assigned record shares the body of the original, a deep copy starts with the same values and a body of its own, and no other call changes what a record gives. When the client has destroyed all its records and values nothing is left. A record that is put into a value that is added to the same record is the exception: it is never freed.", "quantifier": "all histories of operations, of any length, on any number of records, values and names", "why_tests_cant": "The lifetime of a value depends on all copies of records, deep copies, updates and captures before; a use after free need not show in a test.", "anchors": ["log/log-record.h: LogRecord, LogRecordImpl", "log/log-value.h: LogValue, ILogValue", "log/make-log-value.h: CstrLogValue, ValueBasedLogValue, FunctorBasedLogValue"]}
{"id": "C151", "title": "Visiting a portainer with visitors that use the portainer", "statement": "While Portainer::Visit is running, visitors may add and remove items and visit the portainer again, to any depth. Visit never reads beyond the items there are and never calls the visitor with a null item; every visit that ends has visited no item twice and by ascending cookies, has visited every item that was there when it began and that nobody removes, and no other items if visitors do not add. The reference a visitor is given stays good and gives the visitor's item, as long as nobody removes that item.", "quantifier": "all visitors (what a visitor does may depend on its item and on everything visited before), all programs around the visits, all capacities below 2^32, all depths of nesting, all policies by which the vector grows", "why_tests_cant": "A test has one visitor and one number of items; whether the reference dangles depends on whether the vector happens to be full, and nested visits that change the container have unboundedly many interleavings.", "anchors": ["event/portainer.h: Portainer::Visit, Portainer::Add, Portainer::Remove, Portainer::InternalAdd"]}
{"id": "C152", "title": "A summary reports exactly the samples of the probes it is connected to", "statement": "Whatever probes are added to, merged into and erased from probe containers, whatever summaries are connected to and disconnected from them, through whatever names, and whatever is fired and reset: each summary reports the count, sum, minimum, maximum, mean and sample variance of exactly the samples that were fired, since its last Reset, by the probes it was connected to at that time, each as often as there were connections. A sample fired through one name of a probe reaches the summaries connected through any other name of it. Connect is refused only for a name that is not registered, a null summary or a full probe, and its cookie belongs to no other open connection; Fire and Disconnect of a registered name always succeed.", "quantifier": "all histories of calls of any length, any numbers of containers, probes, summaries and connections, all names and injective prefixes, all orders in which a container enumerates its names, all capacities below 2^32, all sample values", "why_tests_cant": "What a summary must report depends on the whole interleaving of connecting, disconnecting, merging, firing and resetting across all its probes, and cookies are reused; a test sees a few histories.", "anchors": ["statistics/probe/probe.h: Probe::Fire", "statistics/probe/probe-container.h: ProbeContainer::Add, ProbeContainer::GetProbe, ProbeContainer::Connect, ProbeContainer::Disconnect, ProbeContainer::MergeFrom", "statistics/summary/summary.h: Summary::OnProbe, Summary::Reset, Summary::Min, Summary::Max, Summary::Count, Summary::Sum, Summary::Mean, Summary::Stddev", "event/event.h: Event::Connect, Event::Disconnect, Event::Fire"]}
{"id": "C153", "title": "Summaries of infinite and NaN samples, and overflow", "statement": "Min and Max of a summary are NaN only when no sample has been taken since the last Reset, and otherwise the least and the greatest sample that is not NaN, infinities included. Count counts samples of every kind. One NaN sample makes Sum, Mean and Stddev NaN until the next Reset; an infinite sample makes Sum and Mean that infinity or NaN, and Stddev NaN; samples of both infinities make Sum NaN, and Sum is never NaN when all samples are finite. With fewer than two samples Stddev is NaN. When all samples are finite and the sums of their magnitudes and squares fit (four times them for Stddev, and at most 2^53 samples), nothing overflows and the reports are those of the rounded arithmetic.", "quantifier": "all histories of samples and resets, every sample a finite double, an infinity or NaN; every rounding to nearest and every greatest finite value of at least 2^53", "why_tests_cant": "The reports depend on where special values occur among all the samples and on what overflows on the way; tests try a few sequences of ordinary numbers.", "anchors": ["statistics/summary/summary.h: Summary::OnProbe, Summary::Reset, Summary::Min, Summary::Max, Summary::Count, Summary::Sum, Summary::Mean, Summary::Stddev", "statistics/summary/i-summary.h: ISummary"]}
{"id": "C154", "title": "Comparing smart pointers tells whether they refer to the same object", "statement": "Two smart pointers, or a smart pointer and a raw pointer, of any two interfaces compare equal exactly when they refer to the same object, aggregated objects belonging to the object that aggregates them; a null pointer equals null pointers of every type and no other pointer. != is the negation, equality is symmetric and transitive, comparing never throws and leaves every reference count as it was, and pointers of one type that are equal have the same hash.", "quantifier": "every graph of objects and aggregates with any interface maps, every pair of pointers obtained by any conversions, every hash of addresses", "why_tests_cant": "The comparison queries interface maps written by users of the library, through any depth of aggregation.", "anchors": ["component/ptr.h: PtrBase::IsSameObject, Ptr::operator==, Ptr::operator!=, operator==, operator!=, hash_value", "component/object.h: QueryInterface of Object, AggObject, MemberAggObject"]}
{"id": "C155", "title": "Sinks of every kind may run the simulator and throw", "statement": "Let the sinks of events and of the simulator's begin, run, pause and end events, and the destructors of the sinks of events, do anything: schedule, cancel, pause, call Run, RunUntil and RunFor to any depth, catch their exceptions or not, and throw. Still each event is fired at most once, at the time it was scheduled for; no sink is called after its event was cancelled; no event is lost: each scheduled event is in the scheduler unless its sink was called or it was cancelled; the begin event is fired at most once, and before any run event and any event; and if nobody asks for a time in the past the clock does not go back.", "quantifier": "every program of sinks (what each does next may depend on everything seen so far), every user program, every depth of nesting, every pattern of try blocks, every moment of the execution; the begin event: every scheduler; the rest: the heap scheduler with every correct push_heap/pop_heap", "why_tests_cant": "which sink throws, runs the simulator or catches, how deep, and what is scheduled in between is unbounded", "anchors": ["simulation/simulator.h: Simulator::Run, Simulator::RunUntil, Simulator::RunFor, Simulator::CheckBeginOfSimulation, Simulator::CheckEndOfSimulation", "simulation/heap-scheduler.h: HeapScheduler::FireAndRemoveNextEvent", "simulation/event-handle.h: EventHandle::Fire", "event/event.h: Event::Fire"]}
{"id": "C156", "title": "Destructors of sinks may use the simulator", "statement": "A sink of an event is destroyed when its event is cancelled or has been fired, if nobody else holds it, and its destructor may do what a sink may do: schedule and cancel events, pause, run the simulator to any depth. No sink is called, or released once more, while it is being destroyed; and to its destructor the event is not pending any more. All of C155 holds with destructors of sinks too.", "quantifier": "every scheduler, every program of sinks, of sinks of the simulator's own events and of destructors, every number of steps", "why_tests_cant": "What a destructor may do depends on the calls under way, of which there are unboundedly many stacks.", "anchors": ["/repo/simulation/event-handle.h:EventHandle::Cancel", "/repo/simulation/event-handle.h:EventHandle::Fire", "/repo/simulation/event-handle.h:EventHandle::IsPending", "/repo/component/ptr.h:PtrBase::Reset", "/repo/simulation/heap-scheduler.h:HeapScheduler::FireAndRemoveNextEvent", "/repo/simulation/list-scheduler.h:ListScheduler::FireAndRemoveNextEvent"]}
{"id": "C157", "title": "Event handles live exactly as long as somebody holds them", "statement": "A handle returned by a scheduler is alive as long as the scheduler or the simulator still needs it or a client's smart pointer holds it, also after its event was fired or cancelled and after the scheduler was destroyed; no destroyed handle is ever used, also when sinks run the simulator, fire events through the scheduler themselves, throw, or drop pointers to the handle being fired; a handle that nobody holds any more is destroyed at once, and when the scheduler is gone and the clients have dropped their pointers no handle is left.", "quantifier": "every scheduler, every history of scheduling, firing (by the simulator or directly, nested to any depth), returning and throwing sinks, copying, using and dropping pointers, running out of memory, and destroying the scheduler; every order of events", "why_tests_cant": "who holds a handle at which moment depends on the whole history of nested calls, dropped pointers and exceptions; a leaked or dangling handle need not show in any output", "anchors": ["/repo/simulation/event-handle.h:EventHandle::Fire", "/repo/simulation/heap-scheduler.h:HeapScheduler::FireAndRemoveNextEvent", "/repo/simulation/heap-scheduler.h:HeapScheduler::ScheduleAt", "/repo/simulation/list-scheduler.h:ListScheduler::FireAndRemoveNextEvent", "/repo/simulation/set-scheduler.h:SetScheduler::FireAndRemoveNextEvent", "/repo/simulation/simulator.h:Simulator::Run", "/repo/component/object.h:Object::Release"]}
{"id": "C158", "title": "A simulation that its user has released is destroyed", "statement": "Objects of a simulation (simulator, scheduler, event handles, sinks, clocks) exist exactly while one of the user's smart pointers leads to them, directly or through other objects. In particular, when the user has let go of all pointers, the simulator, its scheduler, the pending events and their sinks are destroyed.", "quantifier": "all histories of creating simulators, schedulers and components, wiring them, scheduling, cancelling and firing events, connecting and disconnecting sinks, components keeping pointers, and copying and dropping pointers", "why_tests_cant": "A test observes a few wirings, and does not observe that an object is never destroyed; the claim is about every object graph a user can build and every order of letting go.", "anchors": ["simulation/simulator.h: Simulator::Use, scheduler_", "simulation/heap-scheduler.h: HeapScheduler::Use, ScheduleAt, ~HeapScheduler, clock_, events_", "simulation/list-scheduler.h: ListScheduler::Use, ScheduleAt, clock_, list_", "simulation/set-scheduler.h: SetScheduler::Use, ScheduleAt, clock_, set_", "simulation/event-handle.h: EventHandle::Fire, Cancel, sink_", "component/object.h: Object::AddRef, Release", "component/ptr.h: PtrBase"]}
{"id": "C159", "title": "A distribution always reports the arguments it was created with", "statement": "At every point of a history of calls on engines and distributions, the Get* functions of a live distribution return the arguments of its creation, each under the name it has in the documentation of Create*Distribution (GetShape the shape, GetScale the scale, ...), and GetMinValue and GetMaxValue return the ends of the range that are documented; drawing from it, resetting it, seeding the engine, and other engines and distributions do not change what it reports.", "quantifier": "all histories of calls on any number of engines and distributions, all kinds of distributions except those made from a parameter object, all arguments including NaN and infinities, all functions of the interfaces", "why_tests_cant": "There are 24 hand-written classes with two to five such functions each, all alike; a test would have to check every function of every class with arguments that differ, after every history.", "anchors": ["random/distribution/std-gamma-distribution.h: StdGammaDistribution", "random/distribution/std-binomial-distribution.h: StdBinomialDistribution::GetNumTrials", "random/distribution/std-*-distribution.h: Get*", "random/pseudo-random-generator.h: Create*Distribution", "random/i-random.h: IRandom"]}
{"id": "C160", "title": "A binomial distribution makes the number of trials asked for", "statement": "The distribution that CreateBinomialDistribution, GenerateBinomial and their negative binomial counterparts draw from has the number of trials that was asked for. (The code does not: 2^31 trials or more of a binomial distribution become a negative number of trials, although the distribution reports the number asked for.)", "quantifier": "all histories of calls, all 32-bit numbers of trials, all probabilities", "why_tests_cant": "Only numbers of trials beyond 2^31 - 1 are affected, and GetNumTrials and GetMaxValue hide the fault by converting back.", "anchors": ["random/distribution/std-binomial-distribution.h: StdBinomialDistribution", "random/distribution/std-negative-binomial-distribution.h: StdNegativeBinomialDistribution", "random/pseudo-random-generator.h: GenerateBinomial, GenerateNegativeBinomial, CreateBinomialDistribution"]}
{"id": "C161", "title": "Loggers, log sources and sinks that their user has released are destroyed", "statement": "Whatever a user does with loggers, log sources, sinks and filters (create, connect and disconnect sinks, register and unregister sources and loggers as sources of loggers, set filters, copy and release pointers), no object is used after its destruction and no logger throws; an object to which a pointer of the user leads exists; each call makes exactly the references it asks for and gives up exactly those it withdraws; and an object to which no pointer of the user leads is destroyed. (The last does not hold: a logger with a sink, or below a logger with one, refers to itself, so it, its sinks and its sources are never destroyed unless the sinks are disconnected. In histories that close no cycles of their own this is the only reason.)", "quantifier": "all histories of operations of the user on any number of objects, in any acyclic registration of loggers with each other", "why_tests_cant": "What remains after the last pointer is gone is not observable by calls, and depends on the whole history of connections, registrations and releases, in every order.", "anchors": ["log/logger.h: Logger::Connect, Disconnect, RegisterSource, UnregisterSource, SetFilter", "log/detail/log-source-pool.h: LogSourcePool, sink_", "event/event.h: Event::Connect, Disconnect", "component/object.h: Object::AddRef, Release", "component/ptr.h: Ptr"]}
{"id": "C162", "title": "A call of a logger that throws has no effect, and its consequences can be undone", "statement": "Connect on a logger without sinks throws exactly if the sink is null, the limit is zero, some registered source has not room for all its registrations, or an earlier such Connect threw and no Disconnect followed; RegisterSource throws exactly if the source has no room while the logger is attached. Throughout any history no source carries more connections of the logger than registrations; with a sink, every source that did not refuse carries exactly as many, and without one none does unless a Connect threw. A call that throws changes nothing; in particular the registrations are as before. (The last does not hold: a first Connect that throws leaves the sources before the refusing one connected and the logger unusable until Disconnect is called, with any cookie; a RegisterSource that throws leaves the source registered under a cookie the caller never gets.)", "quantifier": "all histories of calls on a logger and of other parties on its sources, in which any of the calls throws; all limits of the logger and of the sources", "why_tests_cant": "Which calls threw, in which order, with which sources full at that moment, is unbounded; the damage shows only in later calls.", "anchors": ["log/logger.h: Logger::Connect, Disconnect, RegisterSource, UnregisterSource", "log/detail/log-source-pool.h: LogSourcePool::Register, Unregister, Connect, Disconnect", "event/event.h: Event::Connect, Disconnect, GetNumSinks"]}
{"id": "C163", "title": "Elements of containers lie in their memory, and iterators reach exactly them", "statement": "When a BiArray, BiVector or BiMatrix has been constructed, every element that its user may name by an index or a pair of indices lies within the block of memory that was allocated, different elements share no byte, and each element was made once; if there is not so much memory, the construction throws. at() accepts exactly the indices from the base index on, as many as there are elements. Any sequence of moves of an iterator by signed numbers leads to the element that counting says; comparisons and differences of iterators are those of their places. (The first does not hold: the number of bytes wraps modulo 2^64, so a container of 2^64 bytes or more is constructed in too small a block.)", "quantifier": "all numbers and sizes of elements, all ways of construction, all allocators, all base indices, all strides and all sequences of moves", "why_tests_cant": "The failing sizes cannot be allocated honestly in a test, the sizes of elements and the moves are unbounded.", "anchors": ["utility/bi-array.h: bi_array_init, bi_array_copy, bi_array_at, BiArrayIterator", "utility/bi-vector.h: bi_vector_init, bi_vector_copy, bi_vector_at, BiVectorIterator", "utility/bi-matrix.h: bi_matrix_init, bi_matrix_copy, bi_matrix_at, BiMatrixIterator, BiMatrixRowIterator, BiMatrixColumnIterator", "utility/array-tool.h: array_init, array_copy_init"]}
{"id": "C164", "title": "Containers of probes and statistics survive lack of memory", "statement": "If memory cannot be allocated while a probe or a statistic is added or another container is merged, the call throws and loses nothing: no name is replaced or lost, every name that the container has leads to an object, a failed Add leaves every name as it was, and a MergeFrom that ended early can be repeated, after which the containers are as if there had been enough memory at first.", "quantifier": "every number of containers, every history of Add, erase, MergeFrom (also from the container itself), Connect and Disconnect, every allocation in it that fails, every order in which names are enumerated", "why_tests_cant": "A test would have to make each single allocation fail in every history; ordinary tests never run out of memory.", "anchors": ["/repo/statistics/probe/probe-container.h: ProbeContainer::Add, MergeFrom, GetProbe, Connect, erase", "/repo/statistics/statistics-container.h: StatisticsContainer::Add, MergeFrom, Get, Connect, erase"]}
{"id": "C165", "title": "Collectors get exactly the values of the statistics they are connected to", "statement": "Whatever statistics, of whatever kinds, are added to, merged into and erased from containers, and whatever is connected to and disconnected from them through whatever names: each collector gets, in order, exactly the values fired by the statistics it was connected to at that time, once for each connection, through the sink interface of the statistic's kind, and is never called through an interface that it does not provide. Connect throws NoInterface exactly for objects that do not provide that interface, InvalidPointer for a null pointer, and otherwise succeeds unless the statistic is full; its cookie belongs to no other open connection.", "quantifier": "every number of containers, statistics of any kinds and collectors providing any interfaces; every history of calls; every value", "why_tests_cant": "The history decides which connection a cookie means and through which of its names a statistic is reached; tests try a few collectors of one kind.", "anchors": ["/repo/statistics/statistic.h: Statistic::Connect, Disconnect, GetEvent", "/repo/statistics/i-statistic.h: IStatistic::Connect, IStat0 ... IStat6", "/repo/statistics/statistics-container.h: Add, Connect, Disconnect, MergeFrom, erase", "/repo/event/event.h: Event::Connect, Disconnect, Fire", "/repo/component/ptr.h: PtrBase(U*, bool, std::false_type)"]}
{"id": "C166", "title": "Probes, their containers and their collectors live exactly as long as they are needed", "statement": "Whatever containers, probes, collectors and other components a user creates, adds, merges, erases, connects, keeps and lets go of, no object is used after its destruction, and everything that a pointer of the user leads to, through items of containers, connections of probes and pointers kept by components, exists. A probe that was merged into other containers outlives the container to which it was added, with its connections, and its samples go on arriving at every sink connected to it, once for each connection. As long as sinks are collectors that keep no pointers and components keep only containers, probes, collectors and components created before them, an object exists exactly while a pointer of the user leads to it, so nothing is left when the user has let go of everything; in general an object exists only if a pointer of the user or a cycle of references leads to it.", "quantifier": "every number of containers, probes, collectors and components; every history of creating, Add, GetProbe, erase, MergeFrom with any prefix function and any order of the enumerator, Connect, Disconnect, Fire, keeping, copying and releasing pointers; every sample", "why_tests_cant": "Whether an object is used too late or leaks depends on who else holds it, hence on the whole history of merging, erasing and releasing; tests keep every object to the end.", "anchors": ["/repo/statistics/probe/probe-container.h: ProbeContainer::Add, GetProbe, MergeFrom, erase, items_", "/repo/statistics/probe/probe.h: Probe::Fire, probeEvent_", "/repo/statistics/summary/summary.h: Summary", "/repo/event/event.h: Event::Connect, Disconnect, Fire", "/repo/component/object.h: Object, Aggregated", "/repo/component/ptr.h: Ptr"]}
{"id": "C167", "title": "Constructors and destructors may use smart pointers to their own object", "statement": "A component's constructor and destructor may make and drop smart pointers to the component itself (directly, or by creating aggregated objects or sinks with it as the controller), and a constructor may throw, like any other code: there is no undefined behaviour, no object is destroyed twice or before its constructor has returned, an object is destroyed when the last smart pointer to it is gone, and no smart pointer leads to a destroyed object.", "quantifier": "every history of nested constructor and destructor calls of any number of objects, of pointers made and dropped, and of constructors that throw", "why_tests_cant": "whether an object survives depends on the order in which pointers are made and dropped at every depth of nested constructors and destructors", "anchors": ["component/object.h: ObjectBase, Object::AddRef, Object::Release, AggObject::Release", "component/ptr.h: PtrBase", "component/class-factory.h: ClassFactory::CreateObject"]}
{"id": "C168", "title": "Pending values, filters and sinks may use the logger that calls them", "statement": "While a logger handles a record, the functors of its pending values, its filter and its sinks may call the logger: add, update and remove pending values, set the filter, connect and disconnect sinks, fire further records at it, and throw. Every call takes effect at once and none is lost. A record gets each pending value once, without replacing values it has; the filter that is set when the pending values are done decides, once; if it accepts, the sinks are called in the order of their cookies with the same record as the filter, whatever is done to the pending values meanwhile. Fire ends with an exception exactly if a callee threw. No callee is destroyed during its call, and there is no undefined behaviour. If no callee fires, Fire ends.", "quantifier": "every logger that calls can produce, all programs of functors, filters and sinks, which may depend on everything that happened before, and nested firing to any depth", "why_tests_cant": "the callees are arbitrary programs that run in the middle of the loops of the logger and of its event, at any depth of nesting", "anchors": ["log/logger.h: Logger::Fire, Logger::AddValue, Logger::UpdateValue, Logger::RemoveValue, Logger::SetFilter, Logger::Connect, Logger::Disconnect", "log/detail/log-pending-value-pool.h: LogPendingValuePool::Apply", "log/log-value.h: LogValue::Get", "event/event.h: Event::Fire"]}
{"id": "C169", "title": "Iterators of rows and columns of a matrix are random access iterators", "statement": "An iterator of a row or column of a BiMatrix that is moved forwards and backwards in any way (++, --, +=, -=, +, -, [], by positive and negative numbers) leads to the element as many places from the first as the moves amount to, whatever the layout; iterators at the same place are equal, their order is that of the elements, and their difference is the number of elements between them. No move within the row or column, or to its end, is undefined behaviour. The plain functions on matrices do the same.", "quantifier": "all sizes, layouts, rows and columns, sizes of elements, addresses of the storage, and all sequences of moves", "why_tests_cant": "the products with the stride are computed in unsigned arithmetic, so that every size, sign and address matters", "anchors": ["utility/bi-matrix.h: BiMatrixRowIterator, BiMatrixColumnIterator, BiMatrixIterator, BiMatrix::begin1, BiMatrix::end1, BiMatrix::begin2, BiMatrix::end2, detail::bi_matrix_row_iterator_inc, detail::bi_matrix_end"]}
{"id": "C170", "title": "Pending values, filters and formatters may use the stream sink that calls them", "statement": "While a stream sink handles a record, the functors of its pending values, its filter and its formatter may call the sink: add, update and remove pending values, set the filter, use another formatter, add streams, fire further records at it, and throw. Every call takes effect at once and none is lost: each pending value, filter and formatter that is called is the one that the sink has at that moment. A record gets each pending value once, without replacing values it has; the filter decides once; if it accepts, the record is formatted exactly once for each stream that the sink has in the end, in the order in which they were added. If a formatter throws, the streams before have the record and those behind do not. Fire throws without calling anybody if there is no formatter, and otherwise ends with an exception exactly if a callee threw. No callee is destroyed during its call, and there is no undefined behaviour. If no callee fires, Fire ends, even if the formatter adds a stream for every stream.", "quantifier": "every stream sink that calls can produce, every growth policy of vectors, all programs of functors, filters and formatters, which may depend on everything that happened before, and nested firing to any depth", "why_tests_cant": "the callees are arbitrary programs that run in the middle of the loops over the pending values and the streams, at any depth of nesting, and whether an added stream invalidates the loop depends on the capacity of a vector", "anchors": ["log/log-stream-sink.h: LogStreamSink::Fire, LogStreamSink::Use, LogStreamSink::AddStream, LogStreamSink::AddValue, LogStreamSink::UpdateValue, LogStreamSink::RemoveValue, LogStreamSink::SetFilter", "log/detail/log-pending-value-pool.h: LogPendingValuePool::Apply", "log/log-value.h: LogValue::Get"]}
