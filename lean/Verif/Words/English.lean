import Verif.Words.Basic

/-! Generated from /repo/wordlists.go, lines 5-2054: each word is its UTF-8 bytes read as one
big-endian number (`0x61626c65` is "able"); the word is in the comment. -/

namespace Btc

set_option maxRecDepth 20000 in
/-- wordlists.go:5-2054 `EnglishWordlist`, in order, packed. -/
def EnglishWordlistPacked : List Nat := [
  0x6162616e646f6e, -- abandon
  0x6162696c697479, -- ability
  0x61626c65, -- able
  0x61626f7574, -- about
  0x61626f7665, -- above
  0x616273656e74, -- absent
  0x6162736f7262, -- absorb
  0x6162737472616374, -- abstract
  0x616273757264, -- absurd
  0x6162757365, -- abuse
  0x616363657373, -- access
  0x6163636964656e74, -- accident
  0x6163636f756e74, -- account
  0x616363757365, -- accuse
  0x61636869657665, -- achieve
  0x61636964, -- acid
  0x61636f7573746963, -- acoustic
  0x61637175697265, -- acquire
  0x6163726f7373, -- across
  0x616374, -- act
  0x616374696f6e, -- action
  0x6163746f72, -- actor
  0x61637472657373, -- actress
  0x61637475616c, -- actual
  0x6164617074, -- adapt
  0x616464, -- add
  0x616464696374, -- addict
  0x61646472657373, -- address
  0x61646a757374, -- adjust
  0x61646d6974, -- admit
  0x6164756c74, -- adult
  0x616476616e6365, -- advance
  0x616476696365, -- advice
  0x6165726f626963, -- aerobic
  0x616666616972, -- affair
  0x6166666f7264, -- afford
  0x616672616964, -- afraid
  0x616761696e, -- again
  0x616765, -- age
  0x6167656e74, -- agent
  0x6167726565, -- agree
  0x6168656164, -- ahead
  0x61696d, -- aim
  0x616972, -- air
  0x616972706f7274, -- airport
  0x6169736c65, -- aisle
  0x616c61726d, -- alarm
  0x616c62756d, -- album
  0x616c636f686f6c, -- alcohol
  0x616c657274, -- alert
  0x616c69656e, -- alien
  0x616c6c, -- all
  0x616c6c6579, -- alley
  0x616c6c6f77, -- allow
  0x616c6d6f7374, -- almost
  0x616c6f6e65, -- alone
  0x616c706861, -- alpha
  0x616c7265616479, -- already
  0x616c736f, -- also
  0x616c746572, -- alter
  0x616c77617973, -- always
  0x616d6174657572, -- amateur
  0x616d617a696e67, -- amazing
  0x616d6f6e67, -- among
  0x616d6f756e74, -- amount
  0x616d75736564, -- amused
  0x616e616c797374, -- analyst
  0x616e63686f72, -- anchor
  0x616e6369656e74, -- ancient
  0x616e676572, -- anger
  0x616e676c65, -- angle
  0x616e677279, -- angry
  0x616e696d616c, -- animal
  0x616e6b6c65, -- ankle
  0x616e6e6f756e6365, -- announce
  0x616e6e75616c, -- annual
  0x616e6f74686572, -- another
  0x616e73776572, -- answer
  0x616e74656e6e61, -- antenna
  0x616e7469717565, -- antique
  0x616e7869657479, -- anxiety
  0x616e79, -- any
  0x6170617274, -- apart
  0x61706f6c6f6779, -- apology
  0x617070656172, -- appear
  0x6170706c65, -- apple
  0x617070726f7665, -- approve
  0x617072696c, -- april
  0x61726368, -- arch
  0x617263746963, -- arctic
  0x61726561, -- area
  0x6172656e61, -- arena
  0x6172677565, -- argue
  0x61726d, -- arm
  0x61726d6564, -- armed
  0x61726d6f72, -- armor
  0x61726d79, -- army
  0x61726f756e64, -- around
  0x617272616e6765, -- arrange
  0x617272657374, -- arrest
  0x617272697665, -- arrive
  0x6172726f77, -- arrow
  0x617274, -- art
  0x6172746566616374, -- artefact
  0x617274697374, -- artist
  0x617274776f726b, -- artwork
  0x61736b, -- ask
  0x617370656374, -- aspect
  0x61737361756c74, -- assault
  0x6173736574, -- asset
  0x617373697374, -- assist
  0x617373756d65, -- assume
  0x617374686d61, -- asthma
  0x6174686c657465, -- athlete
  0x61746f6d, -- atom
  0x61747461636b, -- attack
  0x617474656e64, -- attend
  0x6174746974756465, -- attitude
  0x61747472616374, -- attract
  0x61756374696f6e, -- auction
  0x6175646974, -- audit
  0x617567757374, -- august
  0x61756e74, -- aunt
  0x617574686f72, -- author
  0x6175746f, -- auto
  0x617574756d6e, -- autumn
  0x61766572616765, -- average
  0x61766f6361646f, -- avocado
  0x61766f6964, -- avoid
  0x6177616b65, -- awake
  0x6177617265, -- aware
  0x61776179, -- away
  0x617765736f6d65, -- awesome
  0x617766756c, -- awful
  0x61776b77617264, -- awkward
  0x61786973, -- axis
  0x62616279, -- baby
  0x62616368656c6f72, -- bachelor
  0x6261636f6e, -- bacon
  0x6261646765, -- badge
  0x626167, -- bag
  0x62616c616e6365, -- balance
  0x62616c636f6e79, -- balcony
  0x62616c6c, -- ball
  0x62616d626f6f, -- bamboo
  0x62616e616e61, -- banana
  0x62616e6e6572, -- banner
  0x626172, -- bar
  0x626172656c79, -- barely
  0x6261726761696e, -- bargain
  0x62617272656c, -- barrel
  0x62617365, -- base
  0x6261736963, -- basic
  0x6261736b6574, -- basket
  0x626174746c65, -- battle
  0x6265616368, -- beach
  0x6265616e, -- bean
  0x626561757479, -- beauty
  0x62656361757365, -- because
  0x6265636f6d65, -- become
  0x62656566, -- beef
  0x6265666f7265, -- before
  0x626567696e, -- begin
  0x626568617665, -- behave
  0x626568696e64, -- behind
  0x62656c69657665, -- believe
  0x62656c6f77, -- below
  0x62656c74, -- belt
  0x62656e6368, -- bench
  0x62656e65666974, -- benefit
  0x62657374, -- best
  0x626574726179, -- betray
  0x626574746572, -- better
  0x6265747765656e, -- between
  0x6265796f6e64, -- beyond
  0x62696379636c65, -- bicycle
  0x626964, -- bid
  0x62696b65, -- bike
  0x62696e64, -- bind
  0x62696f6c6f6779, -- biology
  0x62697264, -- bird
  0x6269727468, -- birth
  0x626974746572, -- bitter
  0x626c61636b, -- black
  0x626c616465, -- blade
  0x626c616d65, -- blame
  0x626c616e6b6574, -- blanket
  0x626c617374, -- blast
  0x626c65616b, -- bleak
  0x626c657373, -- bless
  0x626c696e64, -- blind
  0x626c6f6f64, -- blood
  0x626c6f73736f6d, -- blossom
  0x626c6f757365, -- blouse
  0x626c7565, -- blue
  0x626c7572, -- blur
  0x626c757368, -- blush
  0x626f617264, -- board
  0x626f6174, -- boat
  0x626f6479, -- body
  0x626f696c, -- boil
  0x626f6d62, -- bomb
  0x626f6e65, -- bone
  0x626f6e7573, -- bonus
  0x626f6f6b, -- book
  0x626f6f7374, -- boost
  0x626f72646572, -- border
  0x626f72696e67, -- boring
  0x626f72726f77, -- borrow
  0x626f7373, -- boss
  0x626f74746f6d, -- bottom
  0x626f756e6365, -- bounce
  0x626f78, -- box
  0x626f79, -- boy
  0x627261636b6574, -- bracket
  0x627261696e, -- brain
  0x6272616e64, -- brand
  0x6272617373, -- brass
  0x6272617665, -- brave
  0x6272656164, -- bread
  0x627265657a65, -- breeze
  0x627269636b, -- brick
  0x627269646765, -- bridge
  0x6272696566, -- brief
  0x627269676874, -- bright
  0x6272696e67, -- bring
  0x627269736b, -- brisk
  0x62726f63636f6c69, -- broccoli
  0x62726f6b656e, -- broken
  0x62726f6e7a65, -- bronze
  0x62726f6f6d, -- broom
  0x62726f74686572, -- brother
  0x62726f776e, -- brown
  0x6272757368, -- brush
  0x627562626c65, -- bubble
  0x6275646479, -- buddy
  0x627564676574, -- budget
  0x62756666616c6f, -- buffalo
  0x6275696c64, -- build
  0x62756c62, -- bulb
  0x62756c6b, -- bulk
  0x62756c6c6574, -- bullet
  0x62756e646c65, -- bundle
  0x62756e6b6572, -- bunker
  0x62757264656e, -- burden
  0x627572676572, -- burger
  0x6275727374, -- burst
  0x627573, -- bus
  0x627573696e657373, -- business
  0x62757379, -- busy
  0x627574746572, -- butter
  0x6275796572, -- buyer
  0x62757a7a, -- buzz
  0x63616262616765, -- cabbage
  0x636162696e, -- cabin
  0x6361626c65, -- cable
  0x636163747573, -- cactus
  0x63616765, -- cage
  0x63616b65, -- cake
  0x63616c6c, -- call
  0x63616c6d, -- calm
  0x63616d657261, -- camera
  0x63616d70, -- camp
  0x63616e, -- can
  0x63616e616c, -- canal
  0x63616e63656c, -- cancel
  0x63616e6479, -- candy
  0x63616e6e6f6e, -- cannon
  0x63616e6f65, -- canoe
  0x63616e766173, -- canvas
  0x63616e796f6e, -- canyon
  0x63617061626c65, -- capable
  0x6361706974616c, -- capital
  0x6361707461696e, -- captain
  0x636172, -- car
  0x636172626f6e, -- carbon
  0x63617264, -- card
  0x636172676f, -- cargo
  0x636172706574, -- carpet
  0x6361727279, -- carry
  0x63617274, -- cart
  0x63617365, -- case
  0x63617368, -- cash
  0x636173696e6f, -- casino
  0x636173746c65, -- castle
  0x63617375616c, -- casual
  0x636174, -- cat
  0x636174616c6f67, -- catalog
  0x6361746368, -- catch
  0x63617465676f7279, -- category
  0x636174746c65, -- cattle
  0x636175676874, -- caught
  0x6361757365, -- cause
  0x63617574696f6e, -- caution
  0x63617665, -- cave
  0x6365696c696e67, -- ceiling
  0x63656c657279, -- celery
  0x63656d656e74, -- cement
  0x63656e737573, -- census
  0x63656e74757279, -- century
  0x63657265616c, -- cereal
  0x6365727461696e, -- certain
  0x6368616972, -- chair
  0x6368616c6b, -- chalk
  0x6368616d70696f6e, -- champion
  0x6368616e6765, -- change
  0x6368616f73, -- chaos
  0x63686170746572, -- chapter
  0x636861726765, -- charge
  0x6368617365, -- chase
  0x63686174, -- chat
  0x6368656170, -- cheap
  0x636865636b, -- check
  0x636865657365, -- cheese
  0x63686566, -- chef
  0x636865727279, -- cherry
  0x6368657374, -- chest
  0x636869636b656e, -- chicken
  0x6368696566, -- chief
  0x6368696c64, -- child
  0x6368696d6e6579, -- chimney
  0x63686f696365, -- choice
  0x63686f6f7365, -- choose
  0x6368726f6e6963, -- chronic
  0x636875636b6c65, -- chuckle
  0x6368756e6b, -- chunk
  0x636875726e, -- churn
  0x6369676172, -- cigar
  0x63696e6e616d6f6e, -- cinnamon
  0x636972636c65, -- circle
  0x636974697a656e, -- citizen
  0x63697479, -- city
  0x636976696c, -- civil
  0x636c61696d, -- claim
  0x636c6170, -- clap
  0x636c6172696679, -- clarify
  0x636c6177, -- claw
  0x636c6179, -- clay
  0x636c65616e, -- clean
  0x636c65726b, -- clerk
  0x636c65766572, -- clever
  0x636c69636b, -- click
  0x636c69656e74, -- client
  0x636c696666, -- cliff
  0x636c696d62, -- climb
  0x636c696e6963, -- clinic
  0x636c6970, -- clip
  0x636c6f636b, -- clock
  0x636c6f67, -- clog
  0x636c6f7365, -- close
  0x636c6f7468, -- cloth
  0x636c6f7564, -- cloud
  0x636c6f776e, -- clown
  0x636c7562, -- club
  0x636c756d70, -- clump
  0x636c7573746572, -- cluster
  0x636c75746368, -- clutch
  0x636f616368, -- coach
  0x636f617374, -- coast
  0x636f636f6e7574, -- coconut
  0x636f6465, -- code
  0x636f66666565, -- coffee
  0x636f696c, -- coil
  0x636f696e, -- coin
  0x636f6c6c656374, -- collect
  0x636f6c6f72, -- color
  0x636f6c756d6e, -- column
  0x636f6d62696e65, -- combine
  0x636f6d65, -- come
  0x636f6d666f7274, -- comfort
  0x636f6d6963, -- comic
  0x636f6d6d6f6e, -- common
  0x636f6d70616e79, -- company
  0x636f6e63657274, -- concert
  0x636f6e64756374, -- conduct
  0x636f6e6669726d, -- confirm
  0x636f6e6772657373, -- congress
  0x636f6e6e656374, -- connect
  0x636f6e7369646572, -- consider
  0x636f6e74726f6c, -- control
  0x636f6e76696e6365, -- convince
  0x636f6f6b, -- cook
  0x636f6f6c, -- cool
  0x636f70706572, -- copper
  0x636f7079, -- copy
  0x636f72616c, -- coral
  0x636f7265, -- core
  0x636f726e, -- corn
  0x636f7272656374, -- correct
  0x636f7374, -- cost
  0x636f74746f6e, -- cotton
  0x636f756368, -- couch
  0x636f756e747279, -- country
  0x636f75706c65, -- couple
  0x636f75727365, -- course
  0x636f7573696e, -- cousin
  0x636f766572, -- cover
  0x636f796f7465, -- coyote
  0x637261636b, -- crack
  0x637261646c65, -- cradle
  0x6372616674, -- craft
  0x6372616d, -- cram
  0x6372616e65, -- crane
  0x6372617368, -- crash
  0x637261746572, -- crater
  0x637261776c, -- crawl
  0x6372617a79, -- crazy
  0x637265616d, -- cream
  0x637265646974, -- credit
  0x637265656b, -- creek
  0x63726577, -- crew
  0x637269636b6574, -- cricket
  0x6372696d65, -- crime
  0x6372697370, -- crisp
  0x637269746963, -- critic
  0x63726f70, -- crop
  0x63726f7373, -- cross
  0x63726f756368, -- crouch
  0x63726f7764, -- crowd
  0x6372756369616c, -- crucial
  0x637275656c, -- cruel
  0x637275697365, -- cruise
  0x6372756d626c65, -- crumble
  0x6372756e6368, -- crunch
  0x6372757368, -- crush
  0x637279, -- cry
  0x6372797374616c, -- crystal
  0x63756265, -- cube
  0x63756c74757265, -- culture
  0x637570, -- cup
  0x637570626f617264, -- cupboard
  0x637572696f7573, -- curious
  0x63757272656e74, -- current
  0x6375727461696e, -- curtain
  0x6375727665, -- curve
  0x63757368696f6e, -- cushion
  0x637573746f6d, -- custom
  0x63757465, -- cute
  0x6379636c65, -- cycle
  0x646164, -- dad
  0x64616d616765, -- damage
  0x64616d70, -- damp
  0x64616e6365, -- dance
  0x64616e676572, -- danger
  0x646172696e67, -- daring
  0x64617368, -- dash
  0x6461756768746572, -- daughter
  0x6461776e, -- dawn
  0x646179, -- day
  0x6465616c, -- deal
  0x646562617465, -- debate
  0x646562726973, -- debris
  0x646563616465, -- decade
  0x646563656d626572, -- december
  0x646563696465, -- decide
  0x6465636c696e65, -- decline
  0x6465636f72617465, -- decorate
  0x6465637265617365, -- decrease
  0x64656572, -- deer
  0x646566656e7365, -- defense
  0x646566696e65, -- define
  0x64656679, -- defy
  0x646567726565, -- degree
  0x64656c6179, -- delay
  0x64656c69766572, -- deliver
  0x64656d616e64, -- demand
  0x64656d697365, -- demise
  0x64656e69616c, -- denial
  0x64656e74697374, -- dentist
  0x64656e79, -- deny
  0x646570617274, -- depart
  0x646570656e64, -- depend
  0x6465706f736974, -- deposit
  0x6465707468, -- depth
  0x646570757479, -- deputy
  0x646572697665, -- derive
  0x6465736372696265, -- describe
  0x646573657274, -- desert
  0x64657369676e, -- design
  0x6465736b, -- desk
  0x64657370616972, -- despair
  0x64657374726f79, -- destroy
  0x64657461696c, -- detail
  0x646574656374, -- detect
  0x646576656c6f70, -- develop
  0x646576696365, -- device
  0x6465766f7465, -- devote
  0x6469616772616d, -- diagram
  0x6469616c, -- dial
  0x6469616d6f6e64, -- diamond
  0x6469617279, -- diary
  0x64696365, -- dice
  0x64696573656c, -- diesel
  0x64696574, -- diet
  0x646966666572, -- differ
  0x6469676974616c, -- digital
  0x6469676e697479, -- dignity
  0x64696c656d6d61, -- dilemma
  0x64696e6e6572, -- dinner
  0x64696e6f73617572, -- dinosaur
  0x646972656374, -- direct
  0x64697274, -- dirt
  0x6469736167726565, -- disagree
  0x646973636f766572, -- discover
  0x64697365617365, -- disease
  0x64697368, -- dish
  0x6469736d697373, -- dismiss
  0x6469736f72646572, -- disorder
  0x646973706c6179, -- display
  0x64697374616e6365, -- distance
  0x646976657274, -- divert
  0x646976696465, -- divide
  0x6469766f726365, -- divorce
  0x64697a7a79, -- dizzy
  0x646f63746f72, -- doctor
  0x646f63756d656e74, -- document
  0x646f67, -- dog
  0x646f6c6c, -- doll
  0x646f6c7068696e, -- dolphin
  0x646f6d61696e, -- domain
  0x646f6e617465, -- donate
  0x646f6e6b6579, -- donkey
  0x646f6e6f72, -- donor
  0x646f6f72, -- door
  0x646f7365, -- dose
  0x646f75626c65, -- double
  0x646f7665, -- dove
  0x6472616674, -- draft
  0x647261676f6e, -- dragon
  0x6472616d61, -- drama
  0x64726173746963, -- drastic
  0x64726177, -- draw
  0x647265616d, -- dream
  0x6472657373, -- dress
  0x6472696674, -- drift
  0x6472696c6c, -- drill
  0x6472696e6b, -- drink
  0x64726970, -- drip
  0x6472697665, -- drive
  0x64726f70, -- drop
  0x6472756d, -- drum
  0x647279, -- dry
  0x6475636b, -- duck
  0x64756d62, -- dumb
  0x64756e65, -- dune
  0x647572696e67, -- during
  0x64757374, -- dust
  0x6475746368, -- dutch
  0x64757479, -- duty
  0x6477617266, -- dwarf
  0x64796e616d6963, -- dynamic
  0x6561676572, -- eager
  0x6561676c65, -- eagle
  0x6561726c79, -- early
  0x6561726e, -- earn
  0x6561727468, -- earth
  0x656173696c79, -- easily
  0x65617374, -- east
  0x65617379, -- easy
  0x6563686f, -- echo
  0x65636f6c6f6779, -- ecology
  0x65636f6e6f6d79, -- economy
  0x65646765, -- edge
  0x65646974, -- edit
  0x65647563617465, -- educate
  0x6566666f7274, -- effort
  0x656767, -- egg
  0x6569676874, -- eight
  0x656974686572, -- either
  0x656c626f77, -- elbow
  0x656c646572, -- elder
  0x656c656374726963, -- electric
  0x656c6567616e74, -- elegant
  0x656c656d656e74, -- element
  0x656c657068616e74, -- elephant
  0x656c657661746f72, -- elevator
  0x656c697465, -- elite
  0x656c7365, -- else
  0x656d6261726b, -- embark
  0x656d626f6479, -- embody
  0x656d6272616365, -- embrace
  0x656d65726765, -- emerge
  0x656d6f74696f6e, -- emotion
  0x656d706c6f79, -- employ
  0x656d706f776572, -- empower
  0x656d707479, -- empty
  0x656e61626c65, -- enable
  0x656e616374, -- enact
  0x656e64, -- end
  0x656e646c657373, -- endless
  0x656e646f727365, -- endorse
  0x656e656d79, -- enemy
  0x656e65726779, -- energy
  0x656e666f726365, -- enforce
  0x656e67616765, -- engage
  0x656e67696e65, -- engine
  0x656e68616e6365, -- enhance
  0x656e6a6f79, -- enjoy
  0x656e6c697374, -- enlist
  0x656e6f756768, -- enough
  0x656e72696368, -- enrich
  0x656e726f6c6c, -- enroll
  0x656e73757265, -- ensure
  0x656e746572, -- enter
  0x656e74697265, -- entire
  0x656e747279, -- entry
  0x656e76656c6f7065, -- envelope
  0x657069736f6465, -- episode
  0x657175616c, -- equal
  0x6571756970, -- equip
  0x657261, -- era
  0x6572617365, -- erase
  0x65726f6465, -- erode
  0x65726f73696f6e, -- erosion
  0x6572726f72, -- error
  0x6572757074, -- erupt
  0x657363617065, -- escape
  0x6573736179, -- essay
  0x657373656e6365, -- essence
  0x657374617465, -- estate
  0x657465726e616c, -- eternal
  0x657468696373, -- ethics
  0x65766964656e6365, -- evidence
  0x6576696c, -- evil
  0x65766f6b65, -- evoke
  0x65766f6c7665, -- evolve
  0x6578616374, -- exact
  0x6578616d706c65, -- example
  0x657863657373, -- excess
  0x65786368616e6765, -- exchange
  0x657863697465, -- excite
  0x6578636c756465, -- exclude
  0x657863757365, -- excuse
  0x65786563757465, -- execute
  0x6578657263697365, -- exercise
  0x65786861757374, -- exhaust
  0x65786869626974, -- exhibit
  0x6578696c65, -- exile
  0x6578697374, -- exist
  0x65786974, -- exit
  0x65786f746963, -- exotic
  0x657870616e64, -- expand
  0x657870656374, -- expect
  0x657870697265, -- expire
  0x6578706c61696e, -- explain
  0x6578706f7365, -- expose
  0x65787072657373, -- express
  0x657874656e64, -- extend
  0x6578747261, -- extra
  0x657965, -- eye
  0x65796562726f77, -- eyebrow
  0x666162726963, -- fabric
  0x66616365, -- face
  0x666163756c7479, -- faculty
  0x66616465, -- fade
  0x6661696e74, -- faint
  0x6661697468, -- faith
  0x66616c6c, -- fall
  0x66616c7365, -- false
  0x66616d65, -- fame
  0x66616d696c79, -- family
  0x66616d6f7573, -- famous
  0x66616e, -- fan
  0x66616e6379, -- fancy
  0x66616e74617379, -- fantasy
  0x6661726d, -- farm
  0x66617368696f6e, -- fashion
  0x666174, -- fat
  0x666174616c, -- fatal
  0x666174686572, -- father
  0x66617469677565, -- fatigue
  0x6661756c74, -- fault
  0x6661766f72697465, -- favorite
  0x66656174757265, -- feature
  0x6665627275617279, -- february
  0x6665646572616c, -- federal
  0x666565, -- fee
  0x66656564, -- feed
  0x6665656c, -- feel
  0x66656d616c65, -- female
  0x66656e6365, -- fence
  0x666573746976616c, -- festival
  0x6665746368, -- fetch
  0x6665766572, -- fever
  0x666577, -- few
  0x6669626572, -- fiber
  0x66696374696f6e, -- fiction
  0x6669656c64, -- field
  0x666967757265, -- figure
  0x66696c65, -- file
  0x66696c6d, -- film
  0x66696c746572, -- filter
  0x66696e616c, -- final
  0x66696e64, -- find
  0x66696e65, -- fine
  0x66696e676572, -- finger
  0x66696e697368, -- finish
  0x66697265, -- fire
  0x6669726d, -- firm
  0x6669727374, -- first
  0x66697363616c, -- fiscal
  0x66697368, -- fish
  0x666974, -- fit
  0x6669746e657373, -- fitness
  0x666978, -- fix
  0x666c6167, -- flag
  0x666c616d65, -- flame
  0x666c617368, -- flash
  0x666c6174, -- flat
  0x666c61766f72, -- flavor
  0x666c6565, -- flee
  0x666c69676874, -- flight
  0x666c6970, -- flip
  0x666c6f6174, -- float
  0x666c6f636b, -- flock
  0x666c6f6f72, -- floor
  0x666c6f776572, -- flower
  0x666c756964, -- fluid
  0x666c757368, -- flush
  0x666c79, -- fly
  0x666f616d, -- foam
  0x666f637573, -- focus
  0x666f67, -- fog
  0x666f696c, -- foil
  0x666f6c64, -- fold
  0x666f6c6c6f77, -- follow
  0x666f6f64, -- food
  0x666f6f74, -- foot
  0x666f726365, -- force
  0x666f72657374, -- forest
  0x666f72676574, -- forget
  0x666f726b, -- fork
  0x666f7274756e65, -- fortune
  0x666f72756d, -- forum
  0x666f7277617264, -- forward
  0x666f7373696c, -- fossil
  0x666f73746572, -- foster
  0x666f756e64, -- found
  0x666f78, -- fox
  0x66726167696c65, -- fragile
  0x6672616d65, -- frame
  0x6672657175656e74, -- frequent
  0x6672657368, -- fresh
  0x667269656e64, -- friend
  0x6672696e6765, -- fringe
  0x66726f67, -- frog
  0x66726f6e74, -- front
  0x66726f7374, -- frost
  0x66726f776e, -- frown
  0x66726f7a656e, -- frozen
  0x6672756974, -- fruit
  0x6675656c, -- fuel
  0x66756e, -- fun
  0x66756e6e79, -- funny
  0x6675726e616365, -- furnace
  0x66757279, -- fury
  0x667574757265, -- future
  0x676164676574, -- gadget
  0x6761696e, -- gain
  0x67616c617879, -- galaxy
  0x67616c6c657279, -- gallery
  0x67616d65, -- game
  0x676170, -- gap
  0x676172616765, -- garage
  0x67617262616765, -- garbage
  0x67617264656e, -- garden
  0x6761726c6963, -- garlic
  0x6761726d656e74, -- garment
  0x676173, -- gas
  0x67617370, -- gasp
  0x67617465, -- gate
  0x676174686572, -- gather
  0x6761756765, -- gauge
  0x67617a65, -- gaze
  0x67656e6572616c, -- general
  0x67656e697573, -- genius
  0x67656e7265, -- genre
  0x67656e746c65, -- gentle
  0x67656e75696e65, -- genuine
  0x67657374757265, -- gesture
  0x67686f7374, -- ghost
  0x6769616e74, -- giant
  0x67696674, -- gift
  0x676967676c65, -- giggle
  0x67696e676572, -- ginger
  0x67697261666665, -- giraffe
  0x6769726c, -- girl
  0x67697665, -- give
  0x676c6164, -- glad
  0x676c616e6365, -- glance
  0x676c617265, -- glare
  0x676c617373, -- glass
  0x676c696465, -- glide
  0x676c696d707365, -- glimpse
  0x676c6f6265, -- globe
  0x676c6f6f6d, -- gloom
  0x676c6f7279, -- glory
  0x676c6f7665, -- glove
  0x676c6f77, -- glow
  0x676c7565, -- glue
  0x676f6174, -- goat
  0x676f6464657373, -- goddess
  0x676f6c64, -- gold
  0x676f6f64, -- good
  0x676f6f7365, -- goose
  0x676f72696c6c61, -- gorilla
  0x676f7370656c, -- gospel
  0x676f73736970, -- gossip
  0x676f7665726e, -- govern
  0x676f776e, -- gown
  0x67726162, -- grab
  0x6772616365, -- grace
  0x677261696e, -- grain
  0x6772616e74, -- grant
  0x6772617065, -- grape
  0x6772617373, -- grass
  0x67726176697479, -- gravity
  0x6772656174, -- great
  0x677265656e, -- green
  0x67726964, -- grid
  0x6772696566, -- grief
  0x67726974, -- grit
  0x67726f63657279, -- grocery
  0x67726f7570, -- group
  0x67726f77, -- grow
  0x6772756e74, -- grunt
  0x6775617264, -- guard
  0x6775657373, -- guess
  0x6775696465, -- guide
  0x6775696c74, -- guilt
  0x677569746172, -- guitar
  0x67756e, -- gun
  0x67796d, -- gym
  0x6861626974, -- habit
  0x68616972, -- hair
  0x68616c66, -- half
  0x68616d6d6572, -- hammer
  0x68616d73746572, -- hamster
  0x68616e64, -- hand
  0x6861707079, -- happy
  0x686172626f72, -- harbor
  0x68617264, -- hard
  0x6861727368, -- harsh
  0x68617276657374, -- harvest
  0x686174, -- hat
  0x68617665, -- have
  0x6861776b, -- hawk
  0x68617a617264, -- hazard
  0x68656164, -- head
  0x6865616c7468, -- health
  0x6865617274, -- heart
  0x6865617679, -- heavy
  0x6865646765686f67, -- hedgehog
  0x686569676874, -- height
  0x68656c6c6f, -- hello
  0x68656c6d6574, -- helmet
  0x68656c70, -- help
  0x68656e, -- hen
  0x6865726f, -- hero
  0x68696464656e, -- hidden
  0x68696768, -- high
  0x68696c6c, -- hill
  0x68696e74, -- hint
  0x686970, -- hip
  0x68697265, -- hire
  0x686973746f7279, -- history
  0x686f626279, -- hobby
  0x686f636b6579, -- hockey
  0x686f6c64, -- hold
  0x686f6c65, -- hole
  0x686f6c69646179, -- holiday
  0x686f6c6c6f77, -- hollow
  0x686f6d65, -- home
  0x686f6e6579, -- honey
  0x686f6f64, -- hood
  0x686f7065, -- hope
  0x686f726e, -- horn
  0x686f72726f72, -- horror
  0x686f727365, -- horse
  0x686f73706974616c, -- hospital
  0x686f7374, -- host
  0x686f74656c, -- hotel
  0x686f7572, -- hour
  0x686f766572, -- hover
  0x687562, -- hub
  0x68756765, -- huge
  0x68756d616e, -- human
  0x68756d626c65, -- humble
  0x68756d6f72, -- humor
  0x68756e64726564, -- hundred
  0x68756e677279, -- hungry
  0x68756e74, -- hunt
  0x687572646c65, -- hurdle
  0x6875727279, -- hurry
  0x68757274, -- hurt
  0x68757362616e64, -- husband
  0x687962726964, -- hybrid
  0x696365, -- ice
  0x69636f6e, -- icon
  0x69646561, -- idea
  0x6964656e74696679, -- identify
  0x69646c65, -- idle
  0x69676e6f7265, -- ignore
  0x696c6c, -- ill
  0x696c6c6567616c, -- illegal
  0x696c6c6e657373, -- illness
  0x696d616765, -- image
  0x696d6974617465, -- imitate
  0x696d6d656e7365, -- immense
  0x696d6d756e65, -- immune
  0x696d70616374, -- impact
  0x696d706f7365, -- impose
  0x696d70726f7665, -- improve
  0x696d70756c7365, -- impulse
  0x696e6368, -- inch
  0x696e636c756465, -- include
  0x696e636f6d65, -- income
  0x696e637265617365, -- increase
  0x696e646578, -- index
  0x696e646963617465, -- indicate
  0x696e646f6f72, -- indoor
  0x696e647573747279, -- industry
  0x696e66616e74, -- infant
  0x696e666c696374, -- inflict
  0x696e666f726d, -- inform
  0x696e68616c65, -- inhale
  0x696e6865726974, -- inherit
  0x696e697469616c, -- initial
  0x696e6a656374, -- inject
  0x696e6a757279, -- injury
  0x696e6d617465, -- inmate
  0x696e6e6572, -- inner
  0x696e6e6f63656e74, -- innocent
  0x696e707574, -- input
  0x696e7175697279, -- inquiry
  0x696e73616e65, -- insane
  0x696e73656374, -- insect
  0x696e73696465, -- inside
  0x696e7370697265, -- inspire
  0x696e7374616c6c, -- install
  0x696e74616374, -- intact
  0x696e746572657374, -- interest
  0x696e746f, -- into
  0x696e76657374, -- invest
  0x696e76697465, -- invite
  0x696e766f6c7665, -- involve
  0x69726f6e, -- iron
  0x69736c616e64, -- island
  0x69736f6c617465, -- isolate
  0x6973737565, -- issue
  0x6974656d, -- item
  0x69766f7279, -- ivory
  0x6a61636b6574, -- jacket
  0x6a6167756172, -- jaguar
  0x6a6172, -- jar
  0x6a617a7a, -- jazz
  0x6a65616c6f7573, -- jealous
  0x6a65616e73, -- jeans
  0x6a656c6c79, -- jelly
  0x6a6577656c, -- jewel
  0x6a6f62, -- job
  0x6a6f696e, -- join
  0x6a6f6b65, -- joke
  0x6a6f75726e6579, -- journey
  0x6a6f79, -- joy
  0x6a75646765, -- judge
  0x6a75696365, -- juice
  0x6a756d70, -- jump
  0x6a756e676c65, -- jungle
  0x6a756e696f72, -- junior
  0x6a756e6b, -- junk
  0x6a757374, -- just
  0x6b616e6761726f6f, -- kangaroo
  0x6b65656e, -- keen
  0x6b656570, -- keep
  0x6b657463687570, -- ketchup
  0x6b6579, -- key
  0x6b69636b, -- kick
  0x6b6964, -- kid
  0x6b69646e6579, -- kidney
  0x6b696e64, -- kind
  0x6b696e67646f6d, -- kingdom
  0x6b697373, -- kiss
  0x6b6974, -- kit
  0x6b69746368656e, -- kitchen
  0x6b697465, -- kite
  0x6b697474656e, -- kitten
  0x6b697769, -- kiwi
  0x6b6e6565, -- knee
  0x6b6e696665, -- knife
  0x6b6e6f636b, -- knock
  0x6b6e6f77, -- know
  0x6c6162, -- lab
  0x6c6162656c, -- label
  0x6c61626f72, -- labor
  0x6c6164646572, -- ladder
  0x6c616479, -- lady
  0x6c616b65, -- lake
  0x6c616d70, -- lamp
  0x6c616e6775616765, -- language
  0x6c6170746f70, -- laptop
  0x6c61726765, -- large
  0x6c61746572, -- later
  0x6c6174696e, -- latin
  0x6c61756768, -- laugh
  0x6c61756e647279, -- laundry
  0x6c617661, -- lava
  0x6c6177, -- law
  0x6c61776e, -- lawn
  0x6c617773756974, -- lawsuit
  0x6c61796572, -- layer
  0x6c617a79, -- lazy
  0x6c6561646572, -- leader
  0x6c656166, -- leaf
  0x6c6561726e, -- learn
  0x6c65617665, -- leave
  0x6c656374757265, -- lecture
  0x6c656674, -- left
  0x6c6567, -- leg
  0x6c6567616c, -- legal
  0x6c6567656e64, -- legend
  0x6c656973757265, -- leisure
  0x6c656d6f6e, -- lemon
  0x6c656e64, -- lend
  0x6c656e677468, -- length
  0x6c656e73, -- lens
  0x6c656f70617264, -- leopard
  0x6c6573736f6e, -- lesson
  0x6c6574746572, -- letter
  0x6c6576656c, -- level
  0x6c696172, -- liar
  0x6c696265727479, -- liberty
  0x6c696272617279, -- library
  0x6c6963656e7365, -- license
  0x6c696665, -- life
  0x6c696674, -- lift
  0x6c69676874, -- light
  0x6c696b65, -- like
  0x6c696d62, -- limb
  0x6c696d6974, -- limit
  0x6c696e6b, -- link
  0x6c696f6e, -- lion
  0x6c6971756964, -- liquid
  0x6c697374, -- list
  0x6c6974746c65, -- little
  0x6c697665, -- live
  0x6c697a617264, -- lizard
  0x6c6f6164, -- load
  0x6c6f616e, -- loan
  0x6c6f6273746572, -- lobster
  0x6c6f63616c, -- local
  0x6c6f636b, -- lock
  0x6c6f676963, -- logic
  0x6c6f6e656c79, -- lonely
  0x6c6f6e67, -- long
  0x6c6f6f70, -- loop
  0x6c6f7474657279, -- lottery
  0x6c6f7564, -- loud
  0x6c6f756e6765, -- lounge
  0x6c6f7665, -- love
  0x6c6f79616c, -- loyal
  0x6c75636b79, -- lucky
  0x6c756767616765, -- luggage
  0x6c756d626572, -- lumber
  0x6c756e6172, -- lunar
  0x6c756e6368, -- lunch
  0x6c7578757279, -- luxury
  0x6c7972696373, -- lyrics
  0x6d616368696e65, -- machine
  0x6d6164, -- mad
  0x6d61676963, -- magic
  0x6d61676e6574, -- magnet
  0x6d616964, -- maid
  0x6d61696c, -- mail
  0x6d61696e, -- main
  0x6d616a6f72, -- major
  0x6d616b65, -- make
  0x6d616d6d616c, -- mammal
  0x6d616e, -- man
  0x6d616e616765, -- manage
  0x6d616e64617465, -- mandate
  0x6d616e676f, -- mango
  0x6d616e73696f6e, -- mansion
  0x6d616e75616c, -- manual
  0x6d61706c65, -- maple
  0x6d6172626c65, -- marble
  0x6d61726368, -- march
  0x6d617267696e, -- margin
  0x6d6172696e65, -- marine
  0x6d61726b6574, -- market
  0x6d61727269616765, -- marriage
  0x6d61736b, -- mask
  0x6d617373, -- mass
  0x6d6173746572, -- master
  0x6d61746368, -- match
  0x6d6174657269616c, -- material
  0x6d617468, -- math
  0x6d6174726978, -- matrix
  0x6d6174746572, -- matter
  0x6d6178696d756d, -- maximum
  0x6d617a65, -- maze
  0x6d6561646f77, -- meadow
  0x6d65616e, -- mean
  0x6d656173757265, -- measure
  0x6d656174, -- meat
  0x6d656368616e6963, -- mechanic
  0x6d6564616c, -- medal
  0x6d65646961, -- media
  0x6d656c6f6479, -- melody
  0x6d656c74, -- melt
  0x6d656d626572, -- member
  0x6d656d6f7279, -- memory
  0x6d656e74696f6e, -- mention
  0x6d656e75, -- menu
  0x6d65726379, -- mercy
  0x6d65726765, -- merge
  0x6d65726974, -- merit
  0x6d65727279, -- merry
  0x6d657368, -- mesh
  0x6d657373616765, -- message
  0x6d6574616c, -- metal
  0x6d6574686f64, -- method
  0x6d6964646c65, -- middle
  0x6d69646e69676874, -- midnight
  0x6d696c6b, -- milk
  0x6d696c6c696f6e, -- million
  0x6d696d6963, -- mimic
  0x6d696e64, -- mind
  0x6d696e696d756d, -- minimum
  0x6d696e6f72, -- minor
  0x6d696e757465, -- minute
  0x6d697261636c65, -- miracle
  0x6d6972726f72, -- mirror
  0x6d6973657279, -- misery
  0x6d697373, -- miss
  0x6d697374616b65, -- mistake
  0x6d6978, -- mix
  0x6d69786564, -- mixed
  0x6d697874757265, -- mixture
  0x6d6f62696c65, -- mobile
  0x6d6f64656c, -- model
  0x6d6f64696679, -- modify
  0x6d6f6d, -- mom
  0x6d6f6d656e74, -- moment
  0x6d6f6e69746f72, -- monitor
  0x6d6f6e6b6579, -- monkey
  0x6d6f6e73746572, -- monster
  0x6d6f6e7468, -- month
  0x6d6f6f6e, -- moon
  0x6d6f72616c, -- moral
  0x6d6f7265, -- more
  0x6d6f726e696e67, -- morning
  0x6d6f73717569746f, -- mosquito
  0x6d6f74686572, -- mother
  0x6d6f74696f6e, -- motion
  0x6d6f746f72, -- motor
  0x6d6f756e7461696e, -- mountain
  0x6d6f757365, -- mouse
  0x6d6f7665, -- move
  0x6d6f766965, -- movie
  0x6d756368, -- much
  0x6d756666696e, -- muffin
  0x6d756c65, -- mule
  0x6d756c7469706c79, -- multiply
  0x6d7573636c65, -- muscle
  0x6d757365756d, -- museum
  0x6d757368726f6f6d, -- mushroom
  0x6d75736963, -- music
  0x6d757374, -- must
  0x6d757475616c, -- mutual
  0x6d7973656c66, -- myself
  0x6d797374657279, -- mystery
  0x6d797468, -- myth
  0x6e61697665, -- naive
  0x6e616d65, -- name
  0x6e61706b696e, -- napkin
  0x6e6172726f77, -- narrow
  0x6e61737479, -- nasty
  0x6e6174696f6e, -- nation
  0x6e6174757265, -- nature
  0x6e656172, -- near
  0x6e65636b, -- neck
  0x6e656564, -- need
  0x6e65676174697665, -- negative
  0x6e65676c656374, -- neglect
  0x6e656974686572, -- neither
  0x6e6570686577, -- nephew
  0x6e65727665, -- nerve
  0x6e657374, -- nest
  0x6e6574, -- net
  0x6e6574776f726b, -- network
  0x6e65757472616c, -- neutral
  0x6e65766572, -- never
  0x6e657773, -- news
  0x6e657874, -- next
  0x6e696365, -- nice
  0x6e69676874, -- night
  0x6e6f626c65, -- noble
  0x6e6f697365, -- noise
  0x6e6f6d696e6565, -- nominee
  0x6e6f6f646c65, -- noodle
  0x6e6f726d616c, -- normal
  0x6e6f727468, -- north
  0x6e6f7365, -- nose
  0x6e6f7461626c65, -- notable
  0x6e6f7465, -- note
  0x6e6f7468696e67, -- nothing
  0x6e6f74696365, -- notice
  0x6e6f76656c, -- novel
  0x6e6f77, -- now
  0x6e75636c656172, -- nuclear
  0x6e756d626572, -- number
  0x6e75727365, -- nurse
  0x6e7574, -- nut
  0x6f616b, -- oak
  0x6f626579, -- obey
  0x6f626a656374, -- object
  0x6f626c696765, -- oblige
  0x6f627363757265, -- obscure
  0x6f627365727665, -- observe
  0x6f627461696e, -- obtain
  0x6f6276696f7573, -- obvious
  0x6f63637572, -- occur
  0x6f6365616e, -- ocean
  0x6f63746f626572, -- october
  0x6f646f72, -- odor
  0x6f6666, -- off
  0x6f66666572, -- offer
  0x6f6666696365, -- office
  0x6f6674656e, -- often
  0x6f696c, -- oil
  0x6f6b6179, -- okay
  0x6f6c64, -- old
  0x6f6c697665, -- olive
  0x6f6c796d706963, -- olympic
  0x6f6d6974, -- omit
  0x6f6e6365, -- once
  0x6f6e65, -- one
  0x6f6e696f6e, -- onion
  0x6f6e6c696e65, -- online
  0x6f6e6c79, -- only
  0x6f70656e, -- open
  0x6f70657261, -- opera
  0x6f70696e696f6e, -- opinion
  0x6f70706f7365, -- oppose
  0x6f7074696f6e, -- option
  0x6f72616e6765, -- orange
  0x6f72626974, -- orbit
  0x6f726368617264, -- orchard
  0x6f72646572, -- order
  0x6f7264696e617279, -- ordinary
  0x6f7267616e, -- organ
  0x6f7269656e74, -- orient
  0x6f726967696e616c, -- original
  0x6f727068616e, -- orphan
  0x6f737472696368, -- ostrich
  0x6f74686572, -- other
  0x6f7574646f6f72, -- outdoor
  0x6f75746572, -- outer
  0x6f7574707574, -- output
  0x6f757473696465, -- outside
  0x6f76616c, -- oval
  0x6f76656e, -- oven
  0x6f766572, -- over
  0x6f776e, -- own
  0x6f776e6572, -- owner
  0x6f787967656e, -- oxygen
  0x6f7973746572, -- oyster
  0x6f7a6f6e65, -- ozone
  0x70616374, -- pact
  0x706164646c65, -- paddle
  0x70616765, -- page
  0x70616972, -- pair
  0x70616c616365, -- palace
  0x70616c6d, -- palm
  0x70616e6461, -- panda
  0x70616e656c, -- panel
  0x70616e6963, -- panic
  0x70616e74686572, -- panther
  0x7061706572, -- paper
  0x706172616465, -- parade
  0x706172656e74, -- parent
  0x7061726b, -- park
  0x706172726f74, -- parrot
  0x7061727479, -- party
  0x70617373, -- pass
  0x7061746368, -- patch
  0x70617468, -- path
  0x70617469656e74, -- patient
  0x706174726f6c, -- patrol
  0x7061747465726e, -- pattern
  0x7061757365, -- pause
  0x70617665, -- pave
  0x7061796d656e74, -- payment
  0x7065616365, -- peace
  0x7065616e7574, -- peanut
  0x70656172, -- pear
  0x70656173616e74, -- peasant
  0x70656c6963616e, -- pelican
  0x70656e, -- pen
  0x70656e616c7479, -- penalty
  0x70656e63696c, -- pencil
  0x70656f706c65, -- people
  0x706570706572, -- pepper
  0x70657266656374, -- perfect
  0x7065726d6974, -- permit
  0x706572736f6e, -- person
  0x706574, -- pet
  0x70686f6e65, -- phone
  0x70686f746f, -- photo
  0x706872617365, -- phrase
  0x706879736963616c, -- physical
  0x7069616e6f, -- piano
  0x7069636e6963, -- picnic
  0x70696374757265, -- picture
  0x7069656365, -- piece
  0x706967, -- pig
  0x706967656f6e, -- pigeon
  0x70696c6c, -- pill
  0x70696c6f74, -- pilot
  0x70696e6b, -- pink
  0x70696f6e656572, -- pioneer
  0x70697065, -- pipe
  0x706973746f6c, -- pistol
  0x7069746368, -- pitch
  0x70697a7a61, -- pizza
  0x706c616365, -- place
  0x706c616e6574, -- planet
  0x706c6173746963, -- plastic
  0x706c617465, -- plate
  0x706c6179, -- play
  0x706c65617365, -- please
  0x706c65646765, -- pledge
  0x706c75636b, -- pluck
  0x706c7567, -- plug
  0x706c756e6765, -- plunge
  0x706f656d, -- poem
  0x706f6574, -- poet
  0x706f696e74, -- point
  0x706f6c6172, -- polar
  0x706f6c65, -- pole
  0x706f6c696365, -- police
  0x706f6e64, -- pond
  0x706f6e79, -- pony
  0x706f6f6c, -- pool
  0x706f70756c6172, -- popular
  0x706f7274696f6e, -- portion
  0x706f736974696f6e, -- position
  0x706f737369626c65, -- possible
  0x706f7374, -- post
  0x706f7461746f, -- potato
  0x706f7474657279, -- pottery
  0x706f7665727479, -- poverty
  0x706f77646572, -- powder
  0x706f776572, -- power
  0x7072616374696365, -- practice
  0x707261697365, -- praise
  0x70726564696374, -- predict
  0x707265666572, -- prefer
  0x70726570617265, -- prepare
  0x70726573656e74, -- present
  0x707265747479, -- pretty
  0x70726576656e74, -- prevent
  0x7072696365, -- price
  0x7072696465, -- pride
  0x7072696d617279, -- primary
  0x7072696e74, -- print
  0x7072696f72697479, -- priority
  0x707269736f6e, -- prison
  0x70726976617465, -- private
  0x7072697a65, -- prize
  0x70726f626c656d, -- problem
  0x70726f63657373, -- process
  0x70726f64756365, -- produce
  0x70726f666974, -- profit
  0x70726f6772616d, -- program
  0x70726f6a656374, -- project
  0x70726f6d6f7465, -- promote
  0x70726f6f66, -- proof
  0x70726f7065727479, -- property
  0x70726f73706572, -- prosper
  0x70726f74656374, -- protect
  0x70726f7564, -- proud
  0x70726f76696465, -- provide
  0x7075626c6963, -- public
  0x70756464696e67, -- pudding
  0x70756c6c, -- pull
  0x70756c70, -- pulp
  0x70756c7365, -- pulse
  0x70756d706b696e, -- pumpkin
  0x70756e6368, -- punch
  0x707570696c, -- pupil
  0x7075707079, -- puppy
  0x7075726368617365, -- purchase
  0x707572697479, -- purity
  0x707572706f7365, -- purpose
  0x7075727365, -- purse
  0x70757368, -- push
  0x707574, -- put
  0x70757a7a6c65, -- puzzle
  0x707972616d6964, -- pyramid
  0x7175616c697479, -- quality
  0x7175616e74756d, -- quantum
  0x71756172746572, -- quarter
  0x7175657374696f6e, -- question
  0x717569636b, -- quick
  0x71756974, -- quit
  0x7175697a, -- quiz
  0x71756f7465, -- quote
  0x726162626974, -- rabbit
  0x726163636f6f6e, -- raccoon
  0x72616365, -- race
  0x7261636b, -- rack
  0x7261646172, -- radar
  0x726164696f, -- radio
  0x7261696c, -- rail
  0x7261696e, -- rain
  0x7261697365, -- raise
  0x72616c6c79, -- rally
  0x72616d70, -- ramp
  0x72616e6368, -- ranch
  0x72616e646f6d, -- random
  0x72616e6765, -- range
  0x7261706964, -- rapid
  0x72617265, -- rare
  0x72617465, -- rate
  0x726174686572, -- rather
  0x726176656e, -- raven
  0x726177, -- raw
  0x72617a6f72, -- razor
  0x7265616479, -- ready
  0x7265616c, -- real
  0x726561736f6e, -- reason
  0x726562656c, -- rebel
  0x72656275696c64, -- rebuild
  0x726563616c6c, -- recall
  0x72656365697665, -- receive
  0x726563697065, -- recipe
  0x7265636f7264, -- record
  0x72656379636c65, -- recycle
  0x726564756365, -- reduce
  0x7265666c656374, -- reflect
  0x7265666f726d, -- reform
  0x726566757365, -- refuse
  0x726567696f6e, -- region
  0x726567726574, -- regret
  0x726567756c6172, -- regular
  0x72656a656374, -- reject
  0x72656c6178, -- relax
  0x72656c65617365, -- release
  0x72656c696566, -- relief
  0x72656c79, -- rely
  0x72656d61696e, -- remain
  0x72656d656d626572, -- remember
  0x72656d696e64, -- remind
  0x72656d6f7665, -- remove
  0x72656e646572, -- render
  0x72656e6577, -- renew
  0x72656e74, -- rent
  0x72656f70656e, -- reopen
  0x726570616972, -- repair
  0x726570656174, -- repeat
  0x7265706c616365, -- replace
  0x7265706f7274, -- report
  0x72657175697265, -- require
  0x726573637565, -- rescue
  0x726573656d626c65, -- resemble
  0x726573697374, -- resist
  0x7265736f75726365, -- resource
  0x726573706f6e7365, -- response
  0x726573756c74, -- result
  0x726574697265, -- retire
  0x72657472656174, -- retreat
  0x72657475726e, -- return
  0x7265756e696f6e, -- reunion
  0x72657665616c, -- reveal
  0x726576696577, -- review
  0x726577617264, -- reward
  0x72687974686d, -- rhythm
  0x726962, -- rib
  0x726962626f6e, -- ribbon
  0x72696365, -- rice
  0x72696368, -- rich
  0x72696465, -- ride
  0x7269646765, -- ridge
  0x7269666c65, -- rifle
  0x7269676874, -- right
  0x7269676964, -- rigid
  0x72696e67, -- ring
  0x72696f74, -- riot
  0x726970706c65, -- ripple
  0x7269736b, -- risk
  0x72697475616c, -- ritual
  0x726976616c, -- rival
  0x7269766572, -- river
  0x726f6164, -- road
  0x726f617374, -- roast
  0x726f626f74, -- robot
  0x726f62757374, -- robust
  0x726f636b6574, -- rocket
  0x726f6d616e6365, -- romance
  0x726f6f66, -- roof
  0x726f6f6b6965, -- rookie
  0x726f6f6d, -- room
  0x726f7365, -- rose
  0x726f74617465, -- rotate
  0x726f756768, -- rough
  0x726f756e64, -- round
  0x726f757465, -- route
  0x726f79616c, -- royal
  0x727562626572, -- rubber
  0x72756465, -- rude
  0x727567, -- rug
  0x72756c65, -- rule
  0x72756e, -- run
  0x72756e776179, -- runway
  0x727572616c, -- rural
  0x736164, -- sad
  0x736164646c65, -- saddle
  0x7361646e657373, -- sadness
  0x73616665, -- safe
  0x7361696c, -- sail
  0x73616c6164, -- salad
  0x73616c6d6f6e, -- salmon
  0x73616c6f6e, -- salon
  0x73616c74, -- salt
  0x73616c757465, -- salute
  0x73616d65, -- same
  0x73616d706c65, -- sample
  0x73616e64, -- sand
  0x73617469736679, -- satisfy
  0x7361746f736869, -- satoshi
  0x7361756365, -- sauce
  0x73617573616765, -- sausage
  0x73617665, -- save
  0x736179, -- say
  0x7363616c65, -- scale
  0x7363616e, -- scan
  0x7363617265, -- scare
  0x73636174746572, -- scatter
  0x7363656e65, -- scene
  0x736368656d65, -- scheme
  0x7363686f6f6c, -- school
  0x736369656e6365, -- science
  0x73636973736f7273, -- scissors
  0x73636f7270696f6e, -- scorpion
  0x73636f7574, -- scout
  0x7363726170, -- scrap
  0x73637265656e, -- screen
  0x736372697074, -- script
  0x7363727562, -- scrub
  0x736561, -- sea
  0x736561726368, -- search
  0x736561736f6e, -- season
  0x73656174, -- seat
  0x7365636f6e64, -- second
  0x736563726574, -- secret
  0x73656374696f6e, -- section
  0x7365637572697479, -- security
  0x73656564, -- seed
  0x7365656b, -- seek
  0x7365676d656e74, -- segment
  0x73656c656374, -- select
  0x73656c6c, -- sell
  0x73656d696e6172, -- seminar
  0x73656e696f72, -- senior
  0x73656e7365, -- sense
  0x73656e74656e6365, -- sentence
  0x736572696573, -- series
  0x73657276696365, -- service
  0x73657373696f6e, -- session
  0x736574746c65, -- settle
  0x7365747570, -- setup
  0x736576656e, -- seven
  0x736861646f77, -- shadow
  0x7368616674, -- shaft
  0x7368616c6c6f77, -- shallow
  0x7368617265, -- share
  0x73686564, -- shed
  0x7368656c6c, -- shell
  0x73686572696666, -- sheriff
  0x736869656c64, -- shield
  0x7368696674, -- shift
  0x7368696e65, -- shine
  0x73686970, -- ship
  0x736869766572, -- shiver
  0x73686f636b, -- shock
  0x73686f65, -- shoe
  0x73686f6f74, -- shoot
  0x73686f70, -- shop
  0x73686f7274, -- short
  0x73686f756c646572, -- shoulder
  0x73686f7665, -- shove
  0x736872696d70, -- shrimp
  0x7368727567, -- shrug
  0x73687566666c65, -- shuffle
  0x736879, -- shy
  0x7369626c696e67, -- sibling
  0x7369636b, -- sick
  0x73696465, -- side
  0x7369656765, -- siege
  0x7369676874, -- sight
  0x7369676e, -- sign
  0x73696c656e74, -- silent
  0x73696c6b, -- silk
  0x73696c6c79, -- silly
  0x73696c766572, -- silver
  0x73696d696c6172, -- similar
  0x73696d706c65, -- simple
  0x73696e6365, -- since
  0x73696e67, -- sing
  0x736972656e, -- siren
  0x736973746572, -- sister
  0x73697475617465, -- situate
  0x736978, -- six
  0x73697a65, -- size
  0x736b617465, -- skate
  0x736b65746368, -- sketch
  0x736b69, -- ski
  0x736b696c6c, -- skill
  0x736b696e, -- skin
  0x736b697274, -- skirt
  0x736b756c6c, -- skull
  0x736c6162, -- slab
  0x736c616d, -- slam
  0x736c656570, -- sleep
  0x736c656e646572, -- slender
  0x736c696365, -- slice
  0x736c696465, -- slide
  0x736c69676874, -- slight
  0x736c696d, -- slim
  0x736c6f67616e, -- slogan
  0x736c6f74, -- slot
  0x736c6f77, -- slow
  0x736c757368, -- slush
  0x736d616c6c, -- small
  0x736d617274, -- smart
  0x736d696c65, -- smile
  0x736d6f6b65, -- smoke
  0x736d6f6f7468, -- smooth
  0x736e61636b, -- snack
  0x736e616b65, -- snake
  0x736e6170, -- snap
  0x736e696666, -- sniff
  0x736e6f77, -- snow
  0x736f6170, -- soap
  0x736f63636572, -- soccer
  0x736f6369616c, -- social
  0x736f636b, -- sock
  0x736f6461, -- soda
  0x736f6674, -- soft
  0x736f6c6172, -- solar
  0x736f6c64696572, -- soldier
  0x736f6c6964, -- solid
  0x736f6c7574696f6e, -- solution
  0x736f6c7665, -- solve
  0x736f6d656f6e65, -- someone
  0x736f6e67, -- song
  0x736f6f6e, -- soon
  0x736f727279, -- sorry
  0x736f7274, -- sort
  0x736f756c, -- soul
  0x736f756e64, -- sound
  0x736f7570, -- soup
  0x736f75726365, -- source
  0x736f757468, -- south
  0x7370616365, -- space
  0x7370617265, -- spare
  0x7370617469616c, -- spatial
  0x737061776e, -- spawn
  0x737065616b, -- speak
  0x7370656369616c, -- special
  0x7370656564, -- speed
  0x7370656c6c, -- spell
  0x7370656e64, -- spend
  0x737068657265, -- sphere
  0x7370696365, -- spice
  0x737069646572, -- spider
  0x7370696b65, -- spike
  0x7370696e, -- spin
  0x737069726974, -- spirit
  0x73706c6974, -- split
  0x73706f696c, -- spoil
  0x73706f6e736f72, -- sponsor
  0x73706f6f6e, -- spoon
  0x73706f7274, -- sport
  0x73706f74, -- spot
  0x7370726179, -- spray
  0x737072656164, -- spread
  0x737072696e67, -- spring
  0x737079, -- spy
  0x737175617265, -- square
  0x73717565657a65, -- squeeze
  0x737175697272656c, -- squirrel
  0x737461626c65, -- stable
  0x7374616469756d, -- stadium
  0x7374616666, -- staff
  0x7374616765, -- stage
  0x737461697273, -- stairs
  0x7374616d70, -- stamp
  0x7374616e64, -- stand
  0x7374617274, -- start
  0x7374617465, -- state
  0x73746179, -- stay
  0x737465616b, -- steak
  0x737465656c, -- steel
  0x7374656d, -- stem
  0x73746570, -- step
  0x73746572656f, -- stereo
  0x737469636b, -- stick
  0x7374696c6c, -- still
  0x7374696e67, -- sting
  0x73746f636b, -- stock
  0x73746f6d616368, -- stomach
  0x73746f6e65, -- stone
  0x73746f6f6c, -- stool
  0x73746f7279, -- story
  0x73746f7665, -- stove
  0x7374726174656779, -- strategy
  0x737472656574, -- street
  0x737472696b65, -- strike
  0x7374726f6e67, -- strong
  0x7374727567676c65, -- struggle
  0x73747564656e74, -- student
  0x7374756666, -- stuff
  0x7374756d626c65, -- stumble
  0x7374796c65, -- style
  0x7375626a656374, -- subject
  0x7375626d6974, -- submit
  0x737562776179, -- subway
  0x73756363657373, -- success
  0x73756368, -- such
  0x73756464656e, -- sudden
  0x737566666572, -- suffer
  0x7375676172, -- sugar
  0x73756767657374, -- suggest
  0x73756974, -- suit
  0x73756d6d6572, -- summer
  0x73756e, -- sun
  0x73756e6e79, -- sunny
  0x73756e736574, -- sunset
  0x7375706572, -- super
  0x737570706c79, -- supply
  0x73757072656d65, -- supreme
  0x73757265, -- sure
  0x73757266616365, -- surface
  0x7375726765, -- surge
  0x7375727072697365, -- surprise
  0x737572726f756e64, -- surround
  0x737572766579, -- survey
  0x73757370656374, -- suspect
  0x7375737461696e, -- sustain
  0x7377616c6c6f77, -- swallow
  0x7377616d70, -- swamp
  0x73776170, -- swap
  0x737761726d, -- swarm
  0x7377656172, -- swear
  0x7377656574, -- sweet
  0x7377696674, -- swift
  0x7377696d, -- swim
  0x7377696e67, -- swing
  0x737769746368, -- switch
  0x73776f7264, -- sword
  0x73796d626f6c, -- symbol
  0x73796d70746f6d, -- symptom
  0x7379727570, -- syrup
  0x73797374656d, -- system
  0x7461626c65, -- table
  0x7461636b6c65, -- tackle
  0x746167, -- tag
  0x7461696c, -- tail
  0x74616c656e74, -- talent
  0x74616c6b, -- talk
  0x74616e6b, -- tank
  0x74617065, -- tape
  0x746172676574, -- target
  0x7461736b, -- task
  0x7461737465, -- taste
  0x746174746f6f, -- tattoo
  0x74617869, -- taxi
  0x7465616368, -- teach
  0x7465616d, -- team
  0x74656c6c, -- tell
  0x74656e, -- ten
  0x74656e616e74, -- tenant
  0x74656e6e6973, -- tennis
  0x74656e74, -- tent
  0x7465726d, -- term
  0x74657374, -- test
  0x74657874, -- text
  0x7468616e6b, -- thank
  0x74686174, -- that
  0x7468656d65, -- theme
  0x7468656e, -- then
  0x7468656f7279, -- theory
  0x7468657265, -- there
  0x74686579, -- they
  0x7468696e67, -- thing
  0x74686973, -- this
  0x74686f75676874, -- thought
  0x7468726565, -- three
  0x746872697665, -- thrive
  0x7468726f77, -- throw
  0x7468756d62, -- thumb
  0x7468756e646572, -- thunder
  0x7469636b6574, -- ticket
  0x74696465, -- tide
  0x7469676572, -- tiger
  0x74696c74, -- tilt
  0x74696d626572, -- timber
  0x74696d65, -- time
  0x74696e79, -- tiny
  0x746970, -- tip
  0x7469726564, -- tired
  0x746973737565, -- tissue
  0x7469746c65, -- title
  0x746f617374, -- toast
  0x746f626163636f, -- tobacco
  0x746f646179, -- today
  0x746f64646c6572, -- toddler
  0x746f65, -- toe
  0x746f676574686572, -- together
  0x746f696c6574, -- toilet
  0x746f6b656e, -- token
  0x746f6d61746f, -- tomato
  0x746f6d6f72726f77, -- tomorrow
  0x746f6e65, -- tone
  0x746f6e677565, -- tongue
  0x746f6e69676874, -- tonight
  0x746f6f6c, -- tool
  0x746f6f7468, -- tooth
  0x746f70, -- top
  0x746f706963, -- topic
  0x746f70706c65, -- topple
  0x746f726368, -- torch
  0x746f726e61646f, -- tornado
  0x746f72746f697365, -- tortoise
  0x746f7373, -- toss
  0x746f74616c, -- total
  0x746f7572697374, -- tourist
  0x746f77617264, -- toward
  0x746f776572, -- tower
  0x746f776e, -- town
  0x746f79, -- toy
  0x747261636b, -- track
  0x7472616465, -- trade
  0x74726166666963, -- traffic
  0x747261676963, -- tragic
  0x747261696e, -- train
  0x7472616e73666572, -- transfer
  0x74726170, -- trap
  0x7472617368, -- trash
  0x74726176656c, -- travel
  0x74726179, -- tray
  0x7472656174, -- treat
  0x74726565, -- tree
  0x7472656e64, -- trend
  0x747269616c, -- trial
  0x7472696265, -- tribe
  0x747269636b, -- trick
  0x74726967676572, -- trigger
  0x7472696d, -- trim
  0x74726970, -- trip
  0x74726f706879, -- trophy
  0x74726f75626c65, -- trouble
  0x747275636b, -- truck
  0x74727565, -- true
  0x7472756c79, -- truly
  0x7472756d706574, -- trumpet
  0x7472757374, -- trust
  0x7472757468, -- truth
  0x747279, -- try
  0x74756265, -- tube
  0x74756974696f6e, -- tuition
  0x74756d626c65, -- tumble
  0x74756e61, -- tuna
  0x74756e6e656c, -- tunnel
  0x7475726b6579, -- turkey
  0x7475726e, -- turn
  0x747572746c65, -- turtle
  0x7477656c7665, -- twelve
  0x7477656e7479, -- twenty
  0x7477696365, -- twice
  0x7477696e, -- twin
  0x7477697374, -- twist
  0x74776f, -- two
  0x74797065, -- type
  0x7479706963616c, -- typical
  0x75676c79, -- ugly
  0x756d6272656c6c61, -- umbrella
  0x756e61626c65, -- unable
  0x756e6177617265, -- unaware
  0x756e636c65, -- uncle
  0x756e636f766572, -- uncover
  0x756e646572, -- under
  0x756e646f, -- undo
  0x756e66616972, -- unfair
  0x756e666f6c64, -- unfold
  0x756e6861707079, -- unhappy
  0x756e69666f726d, -- uniform
  0x756e69717565, -- unique
  0x756e6974, -- unit
  0x756e697665727365, -- universe
  0x756e6b6e6f776e, -- unknown
  0x756e6c6f636b, -- unlock
  0x756e74696c, -- until
  0x756e757375616c, -- unusual
  0x756e7665696c, -- unveil
  0x757064617465, -- update
  0x75706772616465, -- upgrade
  0x7570686f6c64, -- uphold
  0x75706f6e, -- upon
  0x7570706572, -- upper
  0x7570736574, -- upset
  0x757262616e, -- urban
  0x75726765, -- urge
  0x7573616765, -- usage
  0x757365, -- use
  0x75736564, -- used
  0x75736566756c, -- useful
  0x7573656c657373, -- useless
  0x757375616c, -- usual
  0x7574696c697479, -- utility
  0x766163616e74, -- vacant
  0x76616375756d, -- vacuum
  0x7661677565, -- vague
  0x76616c6964, -- valid
  0x76616c6c6579, -- valley
  0x76616c7665, -- valve
  0x76616e, -- van
  0x76616e697368, -- vanish
  0x7661706f72, -- vapor
  0x766172696f7573, -- various
  0x76617374, -- vast
  0x7661756c74, -- vault
  0x76656869636c65, -- vehicle
  0x76656c766574, -- velvet
  0x76656e646f72, -- vendor
  0x76656e74757265, -- venture
  0x76656e7565, -- venue
  0x76657262, -- verb
  0x766572696679, -- verify
  0x76657273696f6e, -- version
  0x76657279, -- very
  0x76657373656c, -- vessel
  0x7665746572616e, -- veteran
  0x766961626c65, -- viable
  0x76696272616e74, -- vibrant
  0x766963696f7573, -- vicious
  0x766963746f7279, -- victory
  0x766964656f, -- video
  0x76696577, -- view
  0x76696c6c616765, -- village
  0x76696e74616765, -- vintage
  0x76696f6c696e, -- violin
  0x7669727475616c, -- virtual
  0x7669727573, -- virus
  0x76697361, -- visa
  0x7669736974, -- visit
  0x76697375616c, -- visual
  0x766974616c, -- vital
  0x7669766964, -- vivid
  0x766f63616c, -- vocal
  0x766f696365, -- voice
  0x766f6964, -- void
  0x766f6c63616e6f, -- volcano
  0x766f6c756d65, -- volume
  0x766f7465, -- vote
  0x766f79616765, -- voyage
  0x77616765, -- wage
  0x7761676f6e, -- wagon
  0x77616974, -- wait
  0x77616c6b, -- walk
  0x77616c6c, -- wall
  0x77616c6e7574, -- walnut
  0x77616e74, -- want
  0x77617266617265, -- warfare
  0x7761726d, -- warm
  0x77617272696f72, -- warrior
  0x77617368, -- wash
  0x77617370, -- wasp
  0x7761737465, -- waste
  0x7761746572, -- water
  0x77617665, -- wave
  0x776179, -- way
  0x7765616c7468, -- wealth
  0x776561706f6e, -- weapon
  0x77656172, -- wear
  0x77656173656c, -- weasel
  0x77656174686572, -- weather
  0x776562, -- web
  0x77656464696e67, -- wedding
  0x7765656b656e64, -- weekend
  0x7765697264, -- weird
  0x77656c636f6d65, -- welcome
  0x77657374, -- west
  0x776574, -- wet
  0x7768616c65, -- whale
  0x77686174, -- what
  0x7768656174, -- wheat
  0x776865656c, -- wheel
  0x7768656e, -- when
  0x7768657265, -- where
  0x77686970, -- whip
  0x77686973706572, -- whisper
  0x77696465, -- wide
  0x7769647468, -- width
  0x77696665, -- wife
  0x77696c64, -- wild
  0x77696c6c, -- will
  0x77696e, -- win
  0x77696e646f77, -- window
  0x77696e65, -- wine
  0x77696e67, -- wing
  0x77696e6b, -- wink
  0x77696e6e6572, -- winner
  0x77696e746572, -- winter
  0x77697265, -- wire
  0x776973646f6d, -- wisdom
  0x77697365, -- wise
  0x77697368, -- wish
  0x7769746e657373, -- witness
  0x776f6c66, -- wolf
  0x776f6d616e, -- woman
  0x776f6e646572, -- wonder
  0x776f6f64, -- wood
  0x776f6f6c, -- wool
  0x776f7264, -- word
  0x776f726b, -- work
  0x776f726c64, -- world
  0x776f727279, -- worry
  0x776f727468, -- worth
  0x77726170, -- wrap
  0x777265636b, -- wreck
  0x77726573746c65, -- wrestle
  0x7772697374, -- wrist
  0x7772697465, -- write
  0x77726f6e67, -- wrong
  0x79617264, -- yard
  0x79656172, -- year
  0x79656c6c6f77, -- yellow
  0x796f75, -- you
  0x796f756e67, -- young
  0x796f757468, -- youth
  0x7a65627261, -- zebra
  0x7a65726f, -- zero
  0x7a6f6e65, -- zone
  0x7a6f6f] -- zoo

/-- wordlists.go:5-2054 `EnglishWordlist`. -/
def EnglishWordlist : List GoString := unpackWords EnglishWordlistPacked

end Btc
