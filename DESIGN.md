# Formal model of nsfx: design

Source under study: `/repo` (Fuzzier/nsfx, C++ headers), read as text only.
Prover: Lean 4.33.0 (Lake project in `lean/`), Mathlib modules imported one at a time where needed.

## Trusted base

* The Lean kernel (Lean 4.33.0) and the three standard axioms `propext`, `Classical.choice`, `Quot.sound`.
  `lean/Verif/Audit.lean` runs `#print axioms` on every theorem named in `MANIFEST.json`; no theorem depends on
  anything else, most on a subset. There are no own axioms, no `sorry`, no `native_decide`, no `bv_decide`.
* Mathlib is used only as a library of proved facts (imported one module at a time).
* The hand translation from C++ to Lean. Each definition in a model file cites the file and lines in `/repo` it
  models and says where it simplifies. Nothing checks this translation mechanically: it was made by reading the
  source, because the source can be neither built nor run here.
* The statements of the theorems. Each theorem stands next to a concrete case that meets its hypotheses, and the
  statements were tested against edited models (`seeded/LOG.jsonl`).
* For the C++ standard library: `std::push_heap`/`std::pop_heap` are assumed to satisfy the contract written down as
  the structure `Sim.HeapAlg` (the theorems hold for every implementation of it; `Sim/Props.lean` exhibits one);
  `std::set`, `std::unordered_map`, `std::vector`, `std::list` behave as the finite maps and sequences they are.

## Layout

One directory per area under `lean/Verif/`. Model files: `Model.lean`, or `Store.lean`/`Buffer.lean` (Buf),
`VecModel.lean`/`MatModel.lean`/`Lex.lean` (Util). Property theorems: `Props.lean`, or `Record.lean`/`Source.lean` (Log),
`VecProps.lean`/`MatProps.lean`/`Lex.lean` (Util), `Buf/Props.lean`, `Family.lean` (Buf, Zc). The other files are helper lemmas. `Tag/Spec.lean` has the
abstract tag list the code is compared with; elsewhere the specification is plain `List`/`Nat`/`Int` vocabulary
inside the theorem statements. `Base/Bytes.lean` has the byte/number conversions of all areas. `Audit.lean` is generated.

Theorem names start with the property id in the older areas. `_partial` marks a theorem that proves less than the property (what is
missing is in `MANIFEST.json` and in the comment); `_fails` marks a proved counterexample: the code does not have the property.

## Modelling conventions

* `size_t` offsets are unbounded `Nat` except where a property is about wrap-around; then an explicit `% 2^64`.
* Failed `BOOST_ASSERT`, null dereference, out-of-bounds access, use of freed memory, invalid shift and signed
  overflow are a distinct outcome (`none`, `.ub`, `.abort`), never a default value.
* Thrown exceptions are a distinct outcome (`Except`, or the old state with an error).
* Uninitialised memory (fresh storage bytes) is a parameter of the model: theorems hold for every content.
* Allocation never fails, except where a property is about that (C134, C140, C141). Single-threaded execution (the library is single-threaded).
* Both byte orders of the host are covered where the code distinguishes them.

## What each area models, and what it leaves out

* **Buf** (`network/buffer/buffer.h`, `storage/basic-buffer-storage.h`): every public operation on any number of
  buffers sharing storages, including all storage branches of `AddAtStart`/`AddAtEnd`, constructors, copy, move, swap, fragments,
  writes through iterators. Left out: `bad_alloc`; source pointers into the buffer's own storage; `MakeRealBuffer` is the copy
  constructor (which is what the code does). `Const.lean` (here and in Zc): clients with `ConstBuffer`/`ConstZcBuffer` objects.
  `Word.lean` (here and in Zc): all sizes and offsets in 64 bits.
* **Zc** (`zc-buffer.h`): the same for zero-compressed buffers. The wrap of `start_ + size` in `RemoveAtStart` (a size
  near `2^64` passes the first comparison, see below) is in `Zc/Word` only.
* **Iter, ZcIter** (`iterator/buffer-iterator.h`, `iterator/zc-buffer-iterator.h`): all reads, writes, fills and moves for the
  integer widths 1, 2, 4, 8; floating-point and enum overloads are bit patterns of the same widths. The const iterators
  forward to these.
* **Tag** (`packet/tag/*`): shared arrays, compaction, reallocation, concatenation; `Word.lean`: positions in 64 bits. Left out: forming
  pointers from a null array pointer (harmless). `Throw.lean`: the allocation of an array fails, at any of the allocations of a call.
* **Packet** (`packet.h`): composed of Buf and Tag. Packet tags hold packets, so a body can be kept alive by a tag; instead of
  counting these references the model lets the environment decide at each step whether a body is held by a tag (`held`) and when
  such a body goes away (`reap`), so every real behaviour is one of the model's. Reading a packet tag whose body was reaped is an
  artefact of this over-approximation. `Packet::Clone` is declared (`packet.h:649`) but never defined.
  `Throw.lean` (here and in ZPacket): the allocation of a body, a storage or an array of tags fails.
* **ZPacket** (`packet.h` with `NSFX_PACKET_USES_ZERO_COMPRESSED_BUFFER`, `packet-buffer.h:74-80`): the same composition over Zc instead of
  Buf.
* **Address** (`address-little-endian.h`): every width, all three word layouts. Left out: hash, swap. (Wire format over both kinds of iterators: Message.)
* **Sim** (`simulation/*`): the three schedulers and the simulator, with arbitrary sink programs that schedule, cancel and pause.
  `Sim/Throw`: the same with sinks that throw. `Sim/Nest`: the same with sinks that call `Run`, `RunUntil` and `RunFor`. `Sim/Word`: the same with
  time points of 64 bits. `Sim/Free`: the sinks of events and of the simulator's own events, and the destructors of the sinks of events that were
  cancelled or fired, schedule, cancel, pause, run the simulator and throw; the sinks of one of the simulator's own events are one sink, and a sink
  that is being called is not destroyed (C136 has that case). Sinks destroyed together with their handles are not modelled.
  `Sim/Hold`: the reference counts of event handles, for every order of events, without times and sinks.
  `Ptr/Heap`: objects with reference counts and members that refer to each other, and what the last release of an object does.
  `Log/Own`: who owns whom among loggers, log sources, sinks and filters. `Log/Failed*`: loggers some of whose calls threw.
  `Sim/Own`: who owns whom among simulators, schedulers, handles and components; sinks do nothing when called.
* **Event** (`event/event.h`, `event/portainer.h`), **SeqNum**, **Endian**, **Chrono**, **Random**: as the properties say. `Event/Visit`: visitors that use the portainer
  (not for the capacity 1, whose item does not move). `Event/Life`: when
  sinks that are being called are destroyed (also for `simulation/event-handle.h`); a call uses its sink whenever it does something, and
  destructors of sinks do nothing. `Random/Shared`: engines as
  components with the distributions sharing them; the Boost distributions themselves are parameters; `double` arguments are numbers, infinities or NaN.
  `Random/Getters`: what the distributions report (not those made from a parameter object); assumed of Boost's distributions is that they keep the
  arguments they were constructed with, that their accessors return these, and the documented results of `min()` and `max()`.
* **Message** (`network/buffer/io/*.h`): values written and read one behind the other through either kind of iterator; the functions
  are modelled once, over the four operations of an iterator, as the C++ templates are.
* **Ptr** (`component/ptr.h` over `component/object.h`): cells with counts, parts that delegate, `Ptr` members. Destructors do nothing but
  destroy the `Ptr` members; the result of `QueryInterface` is an input of the operation; counts do not overflow; `CreateEventSink` (`Sink.lean`); `swap(T*&)`
  and the `BadAggregation` exception are not modelled. `Ptr/Build`: counts while constructors and destructors run.
* **Query** (`object.h` interface maps, `class-registry.h`, `uid.h`): a static graph of objects; uids as numbers in queries and as
  C strings in the registry; hashing of uids not modelled; `Query/PtrEq` adds comparison and hash of pointers, a pointer being the number
  of the object it points to.
* **Stat** (`statistics/*`): exact ordered-field arithmetic (no rounding, no NaN samples); `Stat/Probe` joins probes, containers, events and summaries; `Stat/Float` repeats the summary with every
  operation rounded to 53 bits (unbounded exponents: no overflow, no subnormal results); `Stat/Special` adds infinities, NaN and overflow;
  `Stat/Short`: containers for which memory is missing at any allocation; `Stat/Typed`: statistics of different kinds and their collectors.
  `Stat/Own`: who owns whom among containers of probes, probes, collectors and components.
* **Log** (`log/*`): records, pending values, filters, the source pool, stream sink pointers, functors of filters and formatters
  (`Functor.lean`), log statements (`Macro.lean`; operands are evaluated as they are printed). `Life.lean`: who keeps values and bodies of records alive; functors in values do not run there. Filters and formatters only read.
  Networks of loggers that are sources of each other are in `Log/Net*` (no cycles; two witnesses of what cycles do); what filters in a
  network see is in `Log/NetFilter`. `Log/Reenter*` is one logger whose pending values, filter and sinks use it while it calls them: sources
  are left out, somebody holds the logger, nobody else changes the record, the order of the hash map is that of a list, and the exceptions of
  `Connect` are caught.
  `Log/StreamRe*` is one stream sink whose pending values, filter and formatter use it, likewise; files are left out there.
  Sources that call back into the logger while it attaches to them are not modelled.
* **Util** (`bi-vector.h`, `bi-array.h`, `array-tool.h`, `bi-matrix.h`, `lexical-compare.h`, `hex-output.h`): element life times of
  `BiVector`, `BiArray` and `BiMatrix` (`MatLife.lean`) over one memory; iterators of `BiMatrix` over a matrix as a value, and over addresses and strict pointers (`MatIter.lean`); `as_hex` over the formatting state of a stream (base, adjustment,
  fill, width, showbase, uppercase).
  `Mem.lean`: bytes asked for, addresses of elements and iterators as machine words.
  `VecThrow.lean`: calls of `BiVector` in which the copy constructor of an element throws. `ArrThrow.lean`: calls of `BiArray` and `BiMatrix`
  that find no memory or whose elements throw. Left out: forming (not dereferencing) out-of-range end pointers of strided iterators.

* **Fixed** (`fixed-buffer.h`, `const-fixed-buffer.h`): every operation on any number of objects sharing storages. A read-only
  buffer is an object that is not written through. Uninitialised bytes are a parameter.
* **TestFw** (`test/suite.h`, `case.h`, `runner.h`, `tool.h`, `builder.h`, `logger.h`): registration, running, counting and the text
  log of the unit-test framework. A test body is a finite sequence of checks; timing and the console are not modelled. `Close.lean`: the
  closeness assertions on one arithmetic type (signed with overflow undefined, unsigned wrapping, exact numbers with NaN). `CloseDouble.lean`: the same on `double`s with rounding to
  nearest, overflow, infinities and NaN (subnormal results are rounded like others, there is one zero).

## Where the code disagrees with the properties

Each line is a proved theorem (in brackets) unless marked "not modelled".

1. `Buffer::MakeFragment` sets the dirty range of the shared storage to the fragment; later growth of one buffer overwrites another
   [C02_isolation_fails, C19_overwrite_fails]. A fragment of a read-only buffer does so too, and the read-only buffer itself may then be
   overwritten [C122_snapshot_fails].
2. The deep-copying constructors of `Buffer`/`ZcBuffer` leave the dirty range empty; growth of a copy that was emptied overwrites the
   original [C04_isolation_fails, C09_isolation_fails], and a read-only buffer of it [C124_snapshot_fails]. So do packets of it
   [C125_overwrite_fails].
3. `Buffer::AddAtStart(*this)` gives wrong bytes [C06_prepend_self_fails]. `Buffer::MakeRealBuffer` shares the storage.
4. A `ZcBuffer` of zeros without storage: `CopyTo` copies nothing, `AddAtEnd(buffer)` does not append it, removing more than its size removes
   nothing [C10_copyTo_hollow_fails, C09_append_hollow_fails, C08_hollow_fails]; a packet of one cannot be added to another [C127_hollow_fails].
5. `ZcBuffer::RemoveAtStart(size)` with `start_ + size >= 2^64` moves the start backwards, so the buffer grows [C139_remove_fails]. A
   `ZcBuffer` whose reserved bytes and zeros together reach `2^64` loses all its zeros when one is removed [C139_zeros_fails].
6. A write through a zero-compressed iterator that straddles an *empty* zero area is refused [C14_straddle_fails].
7. Bytes added next to a cut edge inherit the tags of the removed bytes; concatenation at a cut edge spills tags
   [C17_fails, C17_empty_fails, C18_spill_fails].
8. `Packet::CopyTagsFrom` writes into a shared body [C19_copyTags_fails, C125_copyTags_fails]. `RemoveHeader`/`RemoveTrailer`/`MakeFragment` beyond the size
   empty the buffer while the tag lists assert.
9. `Run` with a cancelled last event advances the clock to it [C27_fails; C27_clock_partial says where the clock can end in any history]; `RunUntil` in the past moves the clock back [C29_fails]; list and
   set schedulers count the running event [C30_list_fails, C30_set_fails]; the list scheduler removes the wrong event when a sink
   schedules an earlier one while the clock is behind [C31_list_fails]; a self-cancelled running event reports not running
   [C32_fails]. A throwing sink leaves the list and set schedulers with the event at the front, so that it is fired again, the heap scheduler
   without it, and all three with a handle that says running [C133_after_throw, C133_list_fails, C133_set_fails, C133_heap_fails,
   C133_interchangeable_fails]; the heap scheduler also skips `Release()` (reference counts are not modelled here).
10. `Event::Fire(args...)` uses an iterator after a sink disconnected the last connection [C36_fire_args_fails].
11. Duration comparison is inverted whenever the conversion overflows [C39_fails, C39_overflow_inverted].
12. A two-number lollipop circle has `2 < 2` [C47_lollipop_fails]; reading a sequence number whose width is not a multiple of 8 can
    give an out-of-range number [C48_read_range_fails].
13. `Ptr` self-assignment, `p = p.Get()` and `p = p->next` by the sole owner use a destroyed object [C49_self_assign_fails, C49_next_fails].
14. Address: `-= INT64_MIN` overflows [C53_minus_fails]; shifts by multiples of 32 shift a 32-bit word by 32 [C56_fails]; products above
    64 bits touch the word behind the array [C57_fails]; differences are wrong up to 32 bits and for several large cases
    [C58_small_fails, C58_wide_fails, C58_fails]; conversion to `bool` is inverted [C60_fails]; unary `-` and `~` change their operand.
15. `xoroshiro1024` never stores its ring position, fourteen of sixteen words are never used and the outputs repeat within 2^128 steps [C65_fails, C65_period_fails].
16. `Logger::Connect(nullptr)` without sinks leaves the logger attached and unusable [C73_null_fails, C74_fails]; `Logger::Fire` writes
    pending values into the caller's record [C88_fails]; the stream sink keeps pointers into a reallocating vector [C89_two_files_fails].
17. `BiVector::assign(n)` with `n < size()` keeps the tail, assigning an own element reads a destroyed object, the sized constructor ignores
    the capacity [C76_assign_fails, C76_assign_own_fails, C76_ctor_fails]; `BiMatrix::fill2` asserts on the wrong dimension [C78_fails, C138_fails],
    `rows * columns` may wrap [C77_overflow_fails].
18. `BufferIterator::MoveForward` and `ZcBufferIterator::MoveForward` accept counts whose sum wraps [C83_move_fails, C83_zc_move_fails].
19. Test framework: a second `Run` counts the failures of the first again [second_run_recounts_fails]; after a fatal failure every later
    run does nothing [run_after_fatal_fails]; a second test case of the same name is silently dropped [repeated_name_fails]; the case
    heading is printed for every failure although the comment promises once [case_heading_once_fails].
20. `Duration`: `a += b`, `a -= b` with a finer `b` drop the part of `b` below the unit of `a`, and `a %= b` can divide by zero where `a % b`
    is defined [C100_assign_fails]; `Split` and `ToString` of the minimum overflow [C41_min_overflows, C101_min_fails].
21. `as_hex` on a left-adjusting stream prints another number, with `showbase` the prefix appears twice, and the stream stays hexadecimal
    with fill `0` [C106_left_fails, C106_showbase_fails, C106_sticky_fails]. `operator<<` of `Ptr` (ptr.h 836-840) leaves the stream hexadecimal
    likewise (not modelled).
22. `NSFX_TEST_EXPECT_AC` on unsigned integers never passes for different values (tolerance below half the range), and NaN is close to
    everything [C107_unsigned_fails, C107_nan_fails, C107_double_nan_fails]. On `double`s values that are too far apart pass when their
    difference is rounded to the tolerance [C107_double_fails] or when the product of limit and relative tolerance overflows
    [C107_double_overflow_fails]; values that are close never fail [C107_double_close].
23. `CreateEventSink` with a controller returns a pointer to a destroyed sink: the temporary navigator is released when the sink interface
    is queried from it, before the caller owns anything [C108_aggregated_fails].
24. `CreateLogFilter` and `CreateLogFormatter` keep a reference to a functor passed by name: the filter changes with it, shares its state
    with other filters, and is unusable after its end [C109_changed_fails, C109_shared_fails, C109_gone_fails].  `MakeLogValue` forbids
    this by a `static_assert` (make-log-value.h).
25. `NSFX_LOG` captures user variables named `go` and `oss`, and through a `const` pointer to a logger it ignores that the logger is disabled
    [C110_capture_fails, C110_const_fails].
26. The engines are documented to take 64-bit seeds; `Seed` takes 32 bits, and the 32-bit engines drop the upper half of a seed given to
    the constructor [C119_seed_fails].
27. `CreateLaplaceDistribution` asserts a positive mean, which is not documented and not demanded by `GenerateLaplace`
    [C120_arguments_fails].
28. `BiVector`: if the copy constructor of an element throws, `assign` and copy assignment leave a vector that cannot be destroyed, the
    constructors leak the memory and the elements [C134_assign_fails, C134_copyAssign_fails, C134_constructor_fails].
29. `Event::Fire` and `EventHandle::Fire` call a sink through the `Ptr` that `Disconnect` and `Cancel` reset: a sink that nobody else holds
    and that disconnects or cancels itself is destroyed in the middle of its call [C135_fails, C136_fails, C136_nested_fails].
30. `Run` and `RunUntil` may be called from a sink, and nothing refuses that. `ListScheduler` and `SetScheduler` remove an event after its
    sink has returned, so the inner run fires the same event again [C137_list_fails, C137_set_fails]; afterwards `ListScheduler` pops
    whatever is first, which may be an event that was never fired [C137_list_fails], and `SetScheduler` erases through an iterator that the
    inner run has invalidated (undefined behaviour, not modelled). `HeapScheduler` removes the event first and is not affected. With all
    three, the end of the inner run sets `paused_`, so the outer run comes back with events pending although nobody paused it
    [C137_run_fails].
31. `AddAtStart`/`AddAtEnd` add the size of the data and the number of new bytes without looking at the carry. If the sum reaches `2^64`
    they do not throw but find the storage large enough, or allocate a small one, and copy the data outside of it
    [C139_buffer_fails, C139_zc_add_fails].
32. `BiArray` and `BiMatrix` do not survive exceptions in two places. If the constructor of an element throws in one of their constructors, the
    memory and the elements constructed so far are never released [C140_array_constructor_fails, C140_matrix_constructor_fails]. Copy
    assignment destroys the target first: if there is no memory, an array counts elements it does not have [C140_array_assign_fails], and a matrix
    has taken over the cells of its source (`dst->data_ = src->data_` before `operator new`), so that the cells are destroyed twice
    [C140_matrix_share_fails]; if the constructor of an element throws, the target cannot be destroyed
    [C140_array_assign_fails, C140_matrix_assign_fails].
33. Packets do not survive `bad_alloc` in three places. `AddHeader`/`AddTrailer` add the bytes first and then let the tag lists follow; if a
    tag list finds no memory, the bytes stay and the tags are on other bytes than before [Packet.C141_shift_fails,
    ZPacket.C141_shift_fails]. Concatenation of tag lists first grows the list and then inserts tag by tag, so that some of the tags
    stay [Tag.C141_tags_concat_fails]. `RemoveHeader`, `RemoveTrailer` and `MakeFragment` are `noexcept` but call `MakePrivate`, which
    allocates when the body is shared (as it always is in `MakeFragment`), so the program is terminated [Packet.C141_terminates_fails,
    ZPacket.C141_terminates_fails].
34. `RunFor(dt)` computes `now + dt` without a check. With a long duration ("run for the longest possible time") after the clock has
    moved, the sum overflows: `RunUntil` gets a time in the far past, moves the clock there and fires nothing [C142_runFor_fails].
    `ScheduleIn` has the same sum, but its overflow is caught by the check of `ScheduleAt`, except for a very negative delay at a negative
    time, which schedules an event in the far future [C142_scheduleIn_fails].
35. `Summary::Stddev` subtracts the squared mean from the sum of squares. In double precision that cancels: three samples of 0.1 leave a
    negative number under the root, and Stddev is NaN [C143_equal_fails]; samples 1000000004, ...07, ...13, ...16, whose variance is 30,
    leave less than -170 [C143_stddev_fails]. `Summary::Count` is a double and stops at 2^53 [C143_count_fails].
36. `Ptr::Reset` calls `Release` before it forgets the pointer, and `Event::Disconnect` adapts its bookkeeping around that. A sink whose
    destructor disconnects its own connection is released again while it is being destroyed [C145_self_fails, C145_one_fails], and a
    destructor that connects another sink gets `ConnectionLimit` although there is room: the slot is not empty yet, and the vector is
    not extended because the number of sinks is smaller than its size [C145_connect_fails, C145_one_fails].
37. `Logger::RegisterSource` accepts a logger as its own source, directly or through others. Registered before the first sink, the logger
    refuses its first sink with `IllegalMethodCall` [C146_cycle_refused]; registered later, the next record recurs without end
    [C146_cycle_endless].
38. Because a logger adds its pending values to the shared body of the record (item 16), loggers of one source disturb each other: the
    sinks of the second see the pending values of the first instead of its own, and so do the sinks of the source that are called later,
    even if the filter of the first rejects the record [C147_fork_fails, C147_rejected_fails].
39. `LogValue::Get<T>` compares type ids from which `boost::typeindex::type_id` has removed references and qualifiers, and then casts to
    `ITypedLogValue<T>`. A value made as `const T` or `const T&` and read as `T` passes the check and is used as an object of a class it
    is not of [C148_fails, C148_pending_fails]. (`log-tool.h` 49 and 54 also call a function `aux::MakeConstantLogValueC` that is
    defined nowhere, so the optional function and file names of a record cannot be compiled in.)
40. The assertions of `RemoveAtStart`, `RemoveAtEnd` and `Insert` of a tag list add before they compare, in `size_t`: removing `2^64 - 1`
    bytes or tagging a byte at offset `2^64 - 1` passes them [C149_assert_fails]. Positions never move back to the middle, so that a list
    through which `2^63` bytes have gone refuses to grow, even if it is empty [C149_drift_fails].
41. `Portainer::Visit` hands out references into its vector. A visitor that adds an item while the vector is full and then uses its own
    item uses freed memory; one that removes its item and adds another finds the other under its reference [visit_ref_fails].
42. `Summary::Min`/`Max` stay NaN until `Reset` when the first sample is NaN, whatever follows; a NaN sample that comes later is passed
    over. So they depend on the order of the samples, and are NaN though data has been collected [special_min_max_fails].
43. `Ptr::operator==` compares pointers of one type by address, and others by the identity of their objects. Pointers to two aggregated
    members of one object that have one interface (two sinks) are unequal though each equals the object's `Ptr<IObject>`: the test is
    not whether they refer to the same object, and is not transitive [ptreq_fails].
44. A run inside a run can leave the clock later than the time the outer `RunUntil` ends at, and `now_ = t` then sets it back. This happens
    if a sink of the begin event runs the simulator, because `paused_ = false` follows [C155_clock_begin_fails]; and if a sink runs it and
    catches the exception that ends that run, because `paused_ = true` is skipped [C155_clock_throw_fails].
45. An event handle releases its sink before it forgets it (`Ptr::Reset`), so the destructor of a sink sees a handle that still has the
    sink. If it cancels its own event, the sink is released twice [C156_cancel_fails]; if the event is being cancelled and the destructor
    runs the simulator, the sink is called while it is being destroyed [C156_run_fails]; with a list (or set) scheduler, which removes an
    event after firing it, that also happens to the sink of an event that was fired [C156_list_fails]; and `IsPending` is true of a fired
    event [C156_pending_fails]. An exception of `Run` that leaves a destructor ends the program [C156_throw_fails].
46. Life times of event handles. With a heap scheduler a handle is never destroyed if its sink throws, as `event->Release()` is then
    skipped [C157_throw_fails], nor if `push_back` finds no memory [C157_memory_fails]. With a list or set scheduler a sink that calls
    `FireAndRemoveNextEvent` fires its own event again, inside which its handle is destroyed although it is still in use
    [C157_nested_fails]; with a set a node is then erased twice even if the simulator holds the handle [C157_twice_fails], and with a list
    `pop_front` may be called on an empty list [C157_empty_fails].
47. A simulator holds its scheduler and the scheduler holds its clock, which is the simulator. `Use` can neither be repeated nor undone, so
    no simulation that is wired as in the tests is ever destroyed, nor are its pending events and their sinks [own_wired_fails,
    own_simulation_fails].
48. `CreateBinomialDistribution` and `GenerateBinomial` take the number of trials as `uint32_t`, but Boost's distribution is given it as
    `int32_t`: 2^31 trials or more become a negative number of them, and the distribution still reports the number asked for
    [C160_trials_fails].
49. The pool of a logger's sources keeps the logger as its sink in a counted pointer (`LogSourcePool::sink_`, log-source-pool.h 61, 130;
    logger.h 116), and so do the sources. A logger that has a sink therefore refers to itself: after the user has released everything, the
    logger, its sinks and its sources still exist, unless every sink was disconnected before [C161, own_logger_fails, own_program_fails].
50. `Logger::RegisterSource` puts the source into the pool before it connects to it (log-source-pool.h 85-98). If the source refuses, the
    exception hides the cookie: the source stays registered, cannot be unregistered, and makes every later first `Connect` throw as long as
    it is full [C162, failed_register_fails]. A first `Connect` that throws leaves the sources before the refusing one connected [C162,
    failed_connect_fails].
51. `BiArray`, `BiVector` and `BiMatrix` compute the number of bytes as `size * sizeof (T)` without a check (bi-array.h 73, 99, 143,
    bi-vector.h 73, bi-matrix.h 318, 352, 392). `BiArray<uint64_t>(2^61 + 1, v)` is constructed in a block of eight bytes [C163, mem_fails].
    With a base index near 2^64 the assertion of `at()` refuses every index [mem_index].
52. `ProbeContainer::Add` and `StatisticsContainer::Add` register the name with a null pointer and then make the object (probe-container.h
    204-213, statistics-container.h 221-231). If there is no memory for the object the name stays, with the null pointer: `Add` refuses it
    from then on, and `Connect` uses the null pointer, until the owner erases the name [C164, short_fails, short_cure].
53. `Object` and `AggObject` begin with the count zero and delete themselves whenever it returns to zero. A constructor that makes and
    drops a smart pointer to its own object is left with a deleted object [C167_constructor_fails]; a destructor that does so is entered
    again [C167_destructor_fails]; a pointer left behind by a destructor, or by a constructor that throws, dangles [C167_left_fails,
    C167_throw_fails].
54. `LogPendingValuePool::Apply` calls the functors while it iterates over the hash map (log-pending-value-pool.h 86-92): a functor that adds
    a pending value or removes its own invalidates the iterator [C168_value_fails]. `Logger::Fire` calls the filter and the functors through
    references that the callee can make the logger give up: a filter that only the logger holds and that sets another filter, and a
    functor that updates its own pending value, are destroyed during their own calls [C168_filter_fails, C168_update_fails].
55. Iterators over elements of a `BiMatrix` that are not neighbours in the storage (columns in the default layout) form pointers outside of
    the storage: the end of every such line but the first, and all moves by negative numbers, because `n * size2_` is unsigned (bi-matrix.h
    1556-1606, 2023-2073). By the rules of C++ that is undefined; with plain addresses the results are right [C169_strict_fails, C169_order].
    The plain functions in `detail` (unused by the class): `bi_matrix_row_iterator_inc`, `_dec`, `_plus` and `_minus` forget `size1_`
    (bi-matrix.h 130-169), `bi_matrix_end` adds the sizes instead of multiplying them (563-569) [C169_plain_fails, C169_end_fails], and the
    column iterators of matrices stored by rows do not compile (`it->size2_`, 198-238).
56. `LogStreamSink::Fire` loops over the vector of streams with iterators and calls the formatter in the loop (log-stream-sink.h 136-140): a
    formatter that adds a stream to a full vector invalidates them [C170_stream_fails]; if there is room the loop goes on to the new stream
    [C170_fire]. The formatter is called through the member, so that one which only the sink holds and which makes the sink use another
    is destroyed during its own call [C170_use_fails].

## Plan per property

| id | what is modelled | how it is proved |
|----|------------------|------------------|
| C01 | heap of storages (bytes, dirty range, refcount) + table of Buffers; every resize branch | invariant over histories; refinement of each op to `List` append/drop |
| C02 | same, all ops | false as stated: witnesses (fragment, deep copy); partial: histories without those two ops, and all histories outside the families of buffers those two ops spoil |
| C03 | MakeFragment | slice equation in every state satisfying the range invariant |
| C04 | deep-copy constructor | bytes equation proved; isolation false: witness |
| C05 | Acquire/Release | invariant: refcount = number of holders; freed iff zero; ranges in capacity |
| C06 | add from block / buffer | refinement; self-prepend false: witness |
| C07 | CopyTo | direct |
| C08 | ZcBuffer heap model | refinement to header ++ zeros ++ trailer |
| C09 | same | invariant; deep copy defect witness, partial without it, and outside the families that descend from a deep copy |
| C10 | MakeRealBuffer, CopyTo | direct; null-storage defect witness |
| C11 | buffer iterator read/write | round trip over all widths and orders |
| C12 | zc iterator reads case by case | equals generic read of logical bytes |
| C13 | endian reorder + memory image | both host orders |
| C14 | zc iterator writes | frame + effect |
| C15-C18 | tag list with internal offsets, shared arrays | per-byte semantics; C17/C18 false at cut edges: witnesses + partial |
| C19-C20 | packet = body(buffer,tags,packet tags) with refcount | copy-on-write invariant; CopyTagsFrom witness; partial: isolation of stored bytes only in histories with headers only or trailers only (dirty ranges that cover one side, `Buf.Sides`) |
| C21-C25 | three schedulers, handles | refinement to sorted list by (time,id); heap property of push/pop |
| C26-C29, C33 | simulator loop with arbitrary sink programs | invariant over the loop with fuel-free relational semantics |
| C30-C32 | handle state, firing with re-entrant scheduling | case analysis; witnesses for C30, C31 |
| C34-C37 | slot tables of Event and Portainer | invariants over histories; witness for C36 |
| C38-C43 | Duration over Int with 64-bit range checks, resolutions num/den | arithmetic; witness for C39 |
| C44-C48 | sequence numbers over Nat with width parameter | arithmetic; witness for C47 (two-number circle), C48 (range) |
| C49-C52 | Ptr programs, interface maps, aggregation, registry | invariants over histories; witness for self-assignment |
| C53-C61 | Address limbs base 2^32 (or one 32/64-bit word) for every width | limb arithmetic by induction; witnesses C56, C57, C58, C60 |
| C62-C68 | engines over `BitVec` | bijectivity by algebra; C65 witness: fourteen words never change |
| C69 | Summary over exact rationals | induction over sample list; floating-point rounding in C143 |
| C70-C71 | containers as finite maps, enumerator | induction over histories |
| C72-C75 | log records as shared maps, logger source pool | invariants; witness for C74 |
| C76-C78 | BiVector, BiMatrix index arithmetic | refinement / bijection; witnesses for assign and fill2 |
| C79-C81 | endian, lexical compare, is_power_2 | direct / induction |
| C82-C83 | iterator blocks, moves (also of iterators of zero-compressed buffers) | direct; witness: `MoveForward` accepts counts whose sum wraps |
| C84 | output scramblers | odd multipliers invertible, rotation bijective |
| C85-C86 | packet operations as list/tag edits; usable bodies | effects per operation; invariant over histories |
| C87 | Address text | digits denote the value |
| C88-C89 | logger firing, stream sink | exact condition; witness |
| C90-C95 | test registration, running, counting, log text | induction over suites; witnesses for C91, C93, C95 |
| C96-C99 | fixed buffers with shared storages | invariant (count = holders) over histories; frame lemmas |
| C100 | duration `* / % -`, `++`, `--`, compound assignment, makers | exact rationals; witness for mixed-unit assignment |
| C101 | `ToString` of durations and time points as character lists | decimal digits are injective, fields are delimited; explicit format |
| C102-C104 | messages: `network/buffer/io/*.h` over an abstract iterator | both iterators satisfy common laws about logical bytes; induction over fields |
| C105 | BiArray over the memory of the BiVector model | refinement to fixed-length sequences over histories |
| C106 | `as_hex` over stream state | digits by induction; witnesses for adjustment, showbase, stickiness |
| C107 | closeness assertions | exact condition per kind of type; `double`s: monotone rounding, exact differences (Sterbenz); witnesses unsigned, NaN, rounding, overflow |
| C108 | what CreateEventSink returns | computation in the pointer model over every heap; witness for aggregation |
| C109 | functors kept by filters and formatters | refinement to owned functors over careful histories; witnesses |
| C110 | log statements | loop semantics with fuel, exact result; witnesses for captured names and constant pointers |
| C111 | layers of headers: packet model + message model + wire format | writing through an iterator is the byte write of the buffer model; induction over sends and receives |
| C112-C113 | transitions as additive maps over the field of two elements (`Random/Group`) | every state is a polynomial of the transition applied to one state; powers of x modulo the annihilating polynomial computed by the kernel on numbers in base 2048 (`Random/Slots`); prime factors with Lucas certificates (`Random/Primes`); data in `Random/Cert` |
| C114-C118 | world of engines and distributions with reference counts (`Random/Shared`) | counting invariant; position in the engine's stream; projection to one engine; simulation between two pasts |
| C119-C120 | seeding of the wrapped engines; assertions of Create* | witnesses; injectivity of splitmix; case analysis |
| C125-C128 | packets over zero-compressed buffers (`ZPacket`) | the invariants of Packet with dirty ranges that cover both sides; a just added area is nobody else's; witnesses for deep copies and buffers without storage |
| C129 | layers of headers on `ZPacket` | as C111; the buffer returned by AddHeader has no boundary of a zero area inside, so no write is refused |
| C130, C131 | layers of headers and trailers (`Frame`) | as C111 and C129, on both sides; reading a trailer starts at `cend()` moved back |
| C132 | parameter objects and the sequences handed to Boost's distributions (`Random/Params`) | contents of objects as functions of the history of calls; what the assertions maintain; the 32-bit counts |
| C133 | histories with exceptions (`Sim/Throw`) | an invariant over the queue, the handles and the trace, for any of the three containers; witnesses for what the code gets wrong |
| C134 | throwing element constructors (`Util/VecThrow`) | `push_back`: refinement of C76 extended; the others: general refutations; a lost block is never touched by any continuation |
| C135, C136 | calls under way and pointers to sinks (`Event/Life`) | one small-step machine for the three kinds of event and for event handles; invariant over its executions; witnesses |
| C137 | a stack of calls under way over the simulator of C21-C33 (`Sim/Nest`) | the invariant of C133 for the heap, with the calls under way; clock: the innermost loop has not passed its end unless paused; witnesses |
| C138 | life cycle of `BiMatrix` over one memory (`Util/MatLife`) | simulation by `BiArray` (C105) with the cells of a grid laid out by C77's bijection |
| C139 | Buf and Zc with every computation on sizes in 64 bits (`Buf/Word`, `Zc/Word`) | equality with the unbounded models, operation by operation, over histories whose sizes fit; general counterexamples for sizes that wrap |
| C140 | calls of `BiArray` and `BiMatrix` that are left by an exception (`Util/ArrThrow`) | assignments and allocation: refinement of C105 and C138 extended; the others: general refutations as for C134 |
| C141 | operations on packets and tag lists that find no memory (`Tag/Throw`, `Packet/Throw`, `ZPacket/Throw`) | the invariants of C15-C20 and C125-C128 over histories with failures; witnesses |
| C142 | the simulator of C21-C33 with the sums of `ScheduleIn` and `RunFor` in 64 bits (`Sim/Word`) | reduction to C21-C25 with absolute times; lockstep with the unbounded simulation while its history stays away from the ends of the range; witnesses |
| C143 | the summary of C69 with every operation followed by a rounding (`Stat/Float`) | running error analysis by induction over the history; witnesses with a computable round-to-nearest-even |
| C144 | the event table with sinks as programs that throw, catch, fire again and connect without memory (`Event/Throw`) | mutual induction over fuel, with the calls and their ends recorded in a trace; reduction of the state to C35 |
| C145 | `Disconnect` in two halves with the destructor of the sink in between (`Event/Destroy`) | mutual induction over fuel; the intermediate states are tables of C35 in which the sinks being destroyed still count; witnesses |
| C146 | loggers as nodes with event and source pool, levels that fall from a logger to its sources (`Log/Net`) | frame lemmas by induction over levels; invariant over histories against the user's view of the calls; witnesses for cycles |
| C147 | the same network with the shared body of the record threaded through the delivery (`Log/NetVals`) | exact description by induction over levels; single files; witnesses |
| C148 | types with qualifiers and references, `LogValue::Get` as check and cast (`Log/Typed`) | decision table; witnesses |
| C149 | tag lists with every sum and difference of positions in `size_t` (`Tag/Word`) | equality of runs with the unbounded model while no list has tracked `2^63` bytes; witnesses |
| C150 | bodies of records and log values as reference-counted cells, with captures and text pointers (`Log/Life`) | counting invariant through cascades of releases; kept texts over histories; well-founded containment for exactness; a cycle as witness |
| C151 | visits of a portainer by visitors that add, remove, read and visit again (`Event/Visit`), a vector as a block with room | stack machine, invariants over steps with ghost tables; two witnesses |
| C152 | probes in containers feeding summaries (`Stat/Probe`), composing the tables of C34/C35, the containers of C70 and the summaries of C69 | simulation invariant between the state and what the history of calls and results tells |
| C153 | the summary over doubles with infinities, NaN and overflow (`Stat/Special`) | invariant by induction over the history; a witness for a NaN that comes first |
| C154 | comparison and hash of smart pointers (`Query/PtrEq`) over the graph of interface queries | decision logic on top of C50/C51; two sinks of one interface as witness |
| C155 | a stack of calls under way with exceptions and `try` blocks, over the simulator of C21-C33 (`Sim/Free`) | the invariant of C137 for the heap; the begin flag for every scheduler; clock: the innermost run has not passed its end unless paused, under three conditions that are each shown to be needed; simulation of C137 |
| C156 | the same model with the destructors of sinks, and a state `dead` for undefined behaviour and `std::terminate` (`Sim/Free`) | no frame is dead: a dying sink is either of an event being cancelled, under which no run is started, or of one that was fired, which is not in the heap |
| C157 | reference counts of event handles and everyone who holds one: scheduler, clients, calls under way (`Sim/Hold`) | each count is the number of holders plus the references lost, which are none if nothing of what loses one happens |
| C158 | simulator, schedulers, handles and components as reference-counted objects with members that refer to each other (`Sim/Own`) | counting invariant through cascades of releases; pigeonhole for the cycle behind every unheld object; a closed pair survives every cascade; witnesses |
| C159-C160 | which Boost distribution a created one is made of and a one-shot call makes, and what its `Get*` functions ask of it (`Random/Getters`) | invariant over histories (made from the arguments of the last creation); case analysis; conversion between signed and unsigned |
| C161 | loggers, sources, sinks and filters as reference-counted objects (`Log/Own` over `Ptr/Heap`) | counting invariant through cascades; induction over the rank for recursive attaching and detaching; frame counts for each operation; pigeonhole; height function for histories without cycles of their own; witnesses |
| C162 | `Log/Model`'s logger, histories with exceptions (`Log/FailedLemmas`) | invariant over all histories with what the client was told as ghost state; loop invariants of the pool with an early exit; criterion for the loop to succeed by induction; witnesses |
| C163 | blocks, byte counts and addresses modulo 2^64; iterators as 64-bit words (`Util/Mem`) | loop invariant; first element that does not fit; homomorphism from integers to words, induction over moves; witnesses |
| C164 | containers of C70 with null items and missing memory (`Stat/Short`) | loop invariant with an early end; invariant over histories; preservation of the null item for the refutation |
| C165 | statistics of any kind in containers, collectors as objects that provide sink interfaces (`Stat/Typed`), composing C34/C35, C70 and the pointer conversion | simulation invariant between the state and what the history of calls and results tells |
| C166 | containers, probes, collectors and components as reference-counted objects (`Stat/Own` over `Ptr/Heap`) | counting invariant through cascades; each operation as a row of moves with a frame; pigeonhole; height function for histories without cycles; witness for the cycle |
| C167 | nested constructors and destructors of counted objects (`Ptr/Build`) | two invariants, one for all histories and one for careful ones; a pointer to a dying object is never lost without undefined behaviour, which gives necessity |
| C168 | one logger with its pending values, filter and event; callees as programs that call it, fire at it and throw (`Log/Reenter`; what the calls do: `Log/ReCalls`) | mutual induction over fuel, with calls and their ends in a trace; witnesses for iterators and for callees destroyed during their calls |
| C169 | iterators of lines of a matrix with flat addresses and with strict pointers, plain functions (`Util/MatIter`) | congruences modulo 2^64 for all sequences of moves; exact condition for strict pointers; refutations of the plain functions |
| C170 | one stream sink with its pending values, filter, formatter and streams, with the capacity of the vector; callees as programs (`Log/StreamRe`; what the calls do: `Log/StreamReCalls`) | mutual induction over fuel, with calls and their ends in a trace; who is set at the moment of each call; witnesses |
| C121-C124 | Buf/Zc states with some buffers marked read-only (`Const.lean`) | refinement to independent byte sequences; family invariant over histories; witnesses |

## Not modelled

Templates and overload resolution, allocation failure (except in BiArray, BiMatrix, packets, tag lists, events, schedulers and containers of probes and statistics, C140, C141, C144, C157, C164), threads, console/file log output,
third-party distributions (Boost.Random), floating-point rounding outside of `Summary`.

## Mutation tests

`seeded/LOG.jsonl` has one line per edited model. `theorems_failed` lists the claimed theorems that no longer have a proof: those
whose own proof script fails and those that rest on a lemma whose proof script fails. Lean stops at the first broken module, so
theorems in later modules that would fail as well may be missing from a line. A script that fails is not by itself a proof that the
statement is false of the edited program; the entry that matters is the one where nothing failed. Those were either tightened
(`theorems_tightened`, with a second line `...-rerun` or the id of the rerun in `note`), are controls or edits that do not change
reachable behaviour, or concern something the theorems deliberately leave open (the standard stream, when a client's call throws);
`note` says which. Attempts whose edited definition did not compile are marked as not valid and list no failed theorems.
Some early attempts were written with property numbers that changed later; their claims were renumbered by hand and say so in `note`.
An attempt whose predicted property did not fail while others did is flagged in `note`, or says there how it was settled.
