import Verif.Words.Basic

/-! Generated from /repo/wordlists.go, lines 4107-6156: each word is its UTF-8 bytes read as one
big-endian number (`0x61626c65` is "able"); the word is in the comment. -/

namespace Btc

set_option maxRecDepth 20000 in
/-- wordlists.go:4107-6156 `JapaneseWordlist`, in order, packed. -/
def JapaneseWordlistPacked : List Nat := [
  0xe38182e38184e38193e3818fe38197e38293, -- あいこくしん
  0xe38182e38184e38195e381a4, -- あいさつ
  0xe38182e38184e3819fe38299, -- あいだ
  0xe38182e3818ae3819de38299e38289, -- あおぞら
  0xe38182e3818be381a1e38283e38293, -- あかちゃん
  0xe38182e3818de3828b, -- あきる
  0xe38182e38191e3818be38299e3819f, -- あけがた
  0xe38182e38191e3828b, -- あける
  0xe38182e38193e3818be38299e3828ce3828b, -- あこがれる
  0xe38182e38195e38184, -- あさい
  0xe38182e38195e381b2, -- あさひ
  0xe38182e38197e38182e381a8, -- あしあと
  0xe38182e38197e38299e3828fe38186, -- あじわう
  0xe38182e38199e38299e3818be3828b, -- あずかる
  0xe38182e38199e38299e3818d, -- あずき
  0xe38182e3819de381b5e38299, -- あそぶ
  0xe38182e3819fe38188e3828b, -- あたえる
  0xe38182e3819fe3819fe38281e3828b, -- あたためる
  0xe38182e3819fe3828ae381bee38188, -- あたりまえ
  0xe38182e3819fe3828b, -- あたる
  0xe38182e381a4e38184, -- あつい
  0xe38182e381a4e3818be38186, -- あつかう
  0xe38182e381a3e38197e38285e3818f, -- あっしゅく
  0xe38182e381a4e381bee3828a, -- あつまり
  0xe38182e381a4e38281e3828b, -- あつめる
  0xe38182e381a6e381aa, -- あてな
  0xe38182e381a6e381afe381bee3828b, -- あてはまる
  0xe38182e381b2e3828b, -- あひる
  0xe38182e381b5e38299e38289, -- あぶら
  0xe38182e381b5e38299e3828b, -- あぶる
  0xe38182e381b5e3828ce3828b, -- あふれる
  0xe38182e381bee38184, -- あまい
  0xe38182e381bee381a8e38299, -- あまど
  0xe38182e381bee38284e3818be38199, -- あまやかす
  0xe38182e381bee3828a, -- あまり
  0xe38182e381bfe38282e381ae, -- あみもの
  0xe38182e38281e3828ae3818b, -- あめりか
  0xe38182e38284e381bee3828b, -- あやまる
  0xe38182e38286e38280, -- あゆむ
  0xe38182e38289e38184e3818fe38299e381be, -- あらいぐま
  0xe38182e38289e38197, -- あらし
  0xe38182e38289e38199e38197e38299, -- あらすじ
  0xe38182e38289e3819fe38281e3828b, -- あらためる
  0xe38182e38289e38286e3828b, -- あらゆる
  0xe38182e38289e3828fe38199, -- あらわす
  0xe38182e3828ae3818be38299e381a8e38186, -- ありがとう
  0xe38182e3828fe3819be3828b, -- あわせる
  0xe38182e3828fe381a6e3828b, -- あわてる
  0xe38182e38293e38184, -- あんい
  0xe38182e38293e3818be38299e38184, -- あんがい
  0xe38182e38293e38193, -- あんこ
  0xe38182e38293e3819be38299e38293, -- あんぜん
  0xe38182e38293e381a6e38184, -- あんてい
  0xe38182e38293e381aae38184, -- あんない
  0xe38182e38293e381bee3828a, -- あんまり
  0xe38184e38184e3819fe38299e38199, -- いいだす
  0xe38184e3818ae38293, -- いおん
  0xe38184e3818be38299e38184, -- いがい
  0xe38184e3818be38299e3818f, -- いがく
  0xe38184e3818de3818ae38184, -- いきおい
  0xe38184e3818de381aae3828a, -- いきなり
  0xe38184e3818de38282e381ae, -- いきもの
  0xe38184e3818de3828b, -- いきる
  0xe38184e3818fe38197e38299, -- いくじ
  0xe38184e3818fe381b5e38299e38293, -- いくぶん
  0xe38184e38191e381afe38299e381aa, -- いけばな
  0xe38184e38191e38293, -- いけん
  0xe38184e38193e38186, -- いこう
  0xe38184e38193e3818f, -- いこく
  0xe38184e38193e381a4, -- いこつ
  0xe38184e38195e381bee38197e38184, -- いさましい
  0xe38184e38195e38293, -- いさん
  0xe38184e38197e3818d, -- いしき
  0xe38184e38197e38299e38285e38186, -- いじゅう
  0xe38184e38197e38299e38287e38186, -- いじょう
  0xe38184e38197e38299e3828fe3828b, -- いじわる
  0xe38184e38199e38299e381bf, -- いずみ
  0xe38184e38199e38299e3828c, -- いずれ
  0xe38184e3819be38184, -- いせい
  0xe38184e3819be38188e381b2e38299, -- いせえび
  0xe38184e3819be3818be38184, -- いせかい
  0xe38184e3819be3818d, -- いせき
  0xe38184e3819be38299e38293, -- いぜん
  0xe38184e3819de38186e3828de38186, -- いそうろう
  0xe38184e3819de3818be38299e38197e38184, -- いそがしい
  0xe38184e3819fe38299e38184, -- いだい
  0xe38184e3819fe38299e3818f, -- いだく
  0xe38184e3819fe38199e38299e38289, -- いたずら
  0xe38184e3819fe381bf, -- いたみ
  0xe38184e3819fe3828ae38182, -- いたりあ
  0xe38184e381a1e3818ae38186, -- いちおう
  0xe38184e381a1e38197e38299, -- いちじ
  0xe38184e381a1e381a8e38299, -- いちど
  0xe38184e381a1e381afe38299, -- いちば
  0xe38184e381a1e381b5e38299, -- いちぶ
  0xe38184e381a1e3828ae38285e38186, -- いちりゅう
  0xe38184e381a4e3818b, -- いつか
  0xe38184e381a3e38197e38285e38293, -- いっしゅん
  0xe38184e381a3e3819be38184, -- いっせい
  0xe38184e381a3e3819de38186, -- いっそう
  0xe38184e381a3e3819fe38293, -- いったん
  0xe38184e381a3e381a1, -- いっち
  0xe38184e381a3e381a6e38184, -- いってい
  0xe38184e381a3e381bbe3829ae38186, -- いっぽう
  0xe38184e381a6e38195e38299, -- いてざ
  0xe38184e381a6e38293, -- いてん
  0xe38184e381a8e38299e38186, -- いどう
  0xe38184e381a8e38193, -- いとこ
  0xe38184e381aae38184, -- いない
  0xe38184e381aae3818b, -- いなか
  0xe38184e381ade38280e3828a, -- いねむり
  0xe38184e381aee381a1, -- いのち
  0xe38184e381aee3828b, -- いのる
  0xe38184e381afe381a4, -- いはつ
  0xe38184e381afe38299e3828b, -- いばる
  0xe38184e381afe38293, -- いはん
  0xe38184e381b2e38299e3818d, -- いびき
  0xe38184e381b2e38293, -- いひん
  0xe38184e381b5e3818f, -- いふく
  0xe38184e381b8e38293, -- いへん
  0xe38184e381bbe38186, -- いほう
  0xe38184e381bfe38293, -- いみん
  0xe38184e38282e38186e381a8, -- いもうと
  0xe38184e38282e3819fe3828c, -- いもたれ
  0xe38184e38282e3828a, -- いもり
  0xe38184e38284e3818be38299e3828b, -- いやがる
  0xe38184e38284e38199, -- いやす
  0xe38184e38288e3818be38293, -- いよかん
  0xe38184e38288e3818f, -- いよく
  0xe38184e38289e38184, -- いらい
  0xe38184e38289e38199e381a8, -- いらすと
  0xe38184e3828ae3818fe38299e381a1, -- いりぐち
  0xe38184e3828ae38287e38186, -- いりょう
  0xe38184e3828ce38184, -- いれい
  0xe38184e3828ce38282e381ae, -- いれもの
  0xe38184e3828ce3828b, -- いれる
  0xe38184e3828de38188e38293e381b2e3829ae381a4, -- いろえんぴつ
  0xe38184e3828fe38184, -- いわい
  0xe38184e3828fe38186, -- いわう
  0xe38184e3828fe3818be38293, -- いわかん
  0xe38184e3828fe381afe38299, -- いわば
  0xe38184e3828fe38286e3828b, -- いわゆる
  0xe38184e38293e38191e38299e38293e381bee38281, -- いんげんまめ
  0xe38184e38293e38195e381a4, -- いんさつ
  0xe38184e38293e38197e38287e38186, -- いんしょう
  0xe38184e38293e38288e38186, -- いんよう
  0xe38186e38188e3818d, -- うえき
  0xe38186e38188e3828b, -- うえる
  0xe38186e3818ae38195e38299, -- うおざ
  0xe38186e3818be38299e38184, -- うがい
  0xe38186e3818be381b5e38299, -- うかぶ
  0xe38186e3818be381b8e38299e3828b, -- うかべる
  0xe38186e3818de3828f, -- うきわ
  0xe38186e3818fe38289e38184e381aa, -- うくらいな
  0xe38186e3818fe3828ce3828c, -- うくれれ
  0xe38186e38191e3819fe381bee3828fe3828b, -- うけたまわる
  0xe38186e38191e381a4e38191, -- うけつけ
  0xe38186e38191e381a8e3828b, -- うけとる
  0xe38186e38191e38282e381a4, -- うけもつ
  0xe38186e38191e3828b, -- うける
  0xe38186e38193e38299e3818be38199, -- うごかす
  0xe38186e38193e38299e3818f, -- うごく
  0xe38186e38193e38293, -- うこん
  0xe38186e38195e3818de38299, -- うさぎ
  0xe38186e38197e381aae38186, -- うしなう
  0xe38186e38197e3828de3818be38299e381bf, -- うしろがみ
  0xe38186e38199e38184, -- うすい
  0xe38186e38199e3818de38299, -- うすぎ
  0xe38186e38199e3818fe38299e38289e38184, -- うすぐらい
  0xe38186e38199e38281e3828b, -- うすめる
  0xe38186e3819be381a4, -- うせつ
  0xe38186e381a1e38182e3828fe3819b, -- うちあわせ
  0xe38186e381a1e3818be38299e3828f, -- うちがわ
  0xe38186e381a1e3818d, -- うちき
  0xe38186e381a1e38285e38186, -- うちゅう
  0xe38186e381a3e3818be3828a, -- うっかり
  0xe38186e381a4e3818fe38197e38184, -- うつくしい
  0xe38186e381a3e3819fe38188e3828b, -- うったえる
  0xe38186e381a4e3828b, -- うつる
  0xe38186e381a8e38299e38293, -- うどん
  0xe38186e381aae3818de38299, -- うなぎ
  0xe38186e381aae38197e38299, -- うなじ
  0xe38186e381aae38199e38299e3818f, -- うなずく
  0xe38186e381aae3828b, -- うなる
  0xe38186e381ade3828b, -- うねる
  0xe38186e381aee38186, -- うのう
  0xe38186e381b5e38299e38191e38299, -- うぶげ
  0xe38186e381b5e38299e38193e38299e38188, -- うぶごえ
  0xe38186e381bee3828ce3828b, -- うまれる
  0xe38186e38281e3828b, -- うめる
  0xe38186e38282e38186, -- うもう
  0xe38186e38284e381bee38186, -- うやまう
  0xe38186e38288e3818f, -- うよく
  0xe38186e38289e3818be38299e38188e38199, -- うらがえす
  0xe38186e38289e3818fe38299e381a1, -- うらぐち
  0xe38186e38289e381aae38184, -- うらない
  0xe38186e3828ae38182e38191e38299, -- うりあげ
  0xe38186e3828ae3818de3828c, -- うりきれ
  0xe38186e3828be38195e38184, -- うるさい
  0xe38186e3828ce38197e38184, -- うれしい
  0xe38186e3828ce38286e3818d, -- うれゆき
  0xe38186e3828ce3828b, -- うれる
  0xe38186e3828de38193, -- うろこ
  0xe38186e3828fe3818d, -- うわき
  0xe38186e3828fe38195, -- うわさ
  0xe38186e38293e38193e38186, -- うんこう
  0xe38186e38293e381a1e38293, -- うんちん
  0xe38186e38293e381a6e38293, -- うんてん
  0xe38186e38293e381a8e38299e38186, -- うんどう
  0xe38188e38184e38188e38293, -- えいえん
  0xe38188e38184e3818be38299, -- えいが
  0xe38188e38184e3818de38287e38186, -- えいきょう
  0xe38188e38184e38193e38299, -- えいご
  0xe38188e38184e3819be38184, -- えいせい
  0xe38188e38184e381b5e38299e38293, -- えいぶん
  0xe38188e38184e38288e38186, -- えいよう
  0xe38188e38184e3828f, -- えいわ
  0xe38188e3818ae3828a, -- えおり
  0xe38188e3818be38299e3818a, -- えがお
  0xe38188e3818be38299e3818f, -- えがく
  0xe38188e3818de3819fe38184, -- えきたい
  0xe38188e3818fe3819be3828b, -- えくせる
  0xe38188e38197e38283e3818f, -- えしゃく
  0xe38188e38199e381a6, -- えすて
  0xe38188e381a4e38289e38293, -- えつらん
  0xe38188e381aee3818fe38299, -- えのぐ
  0xe38188e381bbe38186e381bee3818d, -- えほうまき
  0xe38188e381bbe38293, -- えほん
  0xe38188e381bee3818d, -- えまき
  0xe38188e38282e38197e38299, -- えもじ
  0xe38188e38282e381ae, -- えもの
  0xe38188e38289e38184, -- えらい
  0xe38188e38289e381b5e38299, -- えらぶ
  0xe38188e3828ae38182, -- えりあ
  0xe38188e38293e38188e38293, -- えんえん
  0xe38188e38293e3818be38184, -- えんかい
  0xe38188e38293e3818de38299, -- えんぎ
  0xe38188e38293e38191e38299e3818d, -- えんげき
  0xe38188e38293e38197e38285e38186, -- えんしゅう
  0xe38188e38293e3819be38299e381a4, -- えんぜつ
  0xe38188e38293e3819de3818f, -- えんそく
  0xe38188e38293e381a1e38287e38186, -- えんちょう
  0xe38188e38293e381a8e381a4, -- えんとつ
  0xe3818ae38184e3818be38191e3828b, -- おいかける
  0xe3818ae38184e38193e38199, -- おいこす
  0xe3818ae38184e38197e38184, -- おいしい
  0xe3818ae38184e381a4e3818f, -- おいつく
  0xe3818ae38186e38188e38293, -- おうえん
  0xe3818ae38186e38195e381be, -- おうさま
  0xe3818ae38186e38197e38299, -- おうじ
  0xe3818ae38186e3819be381a4, -- おうせつ
  0xe3818ae38186e3819fe38184, -- おうたい
  0xe3818ae38186e381b5e3818f, -- おうふく
  0xe3818ae38186e381b8e38299e38184, -- おうべい
  0xe3818ae38186e38288e38186, -- おうよう
  0xe3818ae38188e3828b, -- おえる
  0xe3818ae3818ae38184, -- おおい
  0xe3818ae3818ae38186, -- おおう
  0xe3818ae3818ae381a8e38299e3818ae3828a, -- おおどおり
  0xe3818ae3818ae38284, -- おおや
  0xe3818ae3818ae38288e3819d, -- おおよそ
  0xe3818ae3818be38188e3828a, -- おかえり
  0xe3818ae3818be38199e38299, -- おかず
  0xe3818ae3818be38299e38280, -- おがむ
  0xe3818ae3818be3828fe3828a, -- おかわり
  0xe3818ae3818de38299e381aae38186, -- おぎなう
  0xe3818ae3818de3828b, -- おきる
  0xe3818ae3818fe38195e381be, -- おくさま
  0xe3818ae3818fe38197e38299e38287e38186, -- おくじょう
  0xe3818ae3818fe3828ae3818be38299e381aa, -- おくりがな
  0xe3818ae3818fe3828b, -- おくる
  0xe3818ae3818fe3828ce3828b, -- おくれる
  0xe3818ae38193e38199, -- おこす
  0xe3818ae38193e381aae38186, -- おこなう
  0xe3818ae38193e3828b, -- おこる
  0xe3818ae38195e38188e3828b, -- おさえる
  0xe3818ae38195e381aae38184, -- おさない
  0xe3818ae38195e38281e3828b, -- おさめる
  0xe3818ae38197e38184e3828c, -- おしいれ
  0xe3818ae38197e38188e3828b, -- おしえる
  0xe3818ae38197e38299e3818de38299, -- おじぎ
  0xe3818ae38197e38299e38195e38293, -- おじさん
  0xe3818ae38197e38283e3828c, -- おしゃれ
  0xe3818ae3819de38289e3818f, -- おそらく
  0xe3818ae3819de3828fe3828b, -- おそわる
  0xe3818ae3819fe3818be38299e38184, -- おたがい
  0xe3818ae3819fe3818f, -- おたく
  0xe3818ae3819fe38299e38284e3818b, -- おだやか
  0xe3818ae381a1e381a4e3818f, -- おちつく
  0xe3818ae381a3e381a8, -- おっと
  0xe3818ae381a4e3828a, -- おつり
  0xe3818ae381a6e38299e3818be38191, -- おでかけ
  0xe3818ae381a8e38197e38282e381ae, -- おとしもの
  0xe3818ae381a8e381aae38197e38184, -- おとなしい
  0xe3818ae381a8e38299e3828a, -- おどり
  0xe3818ae381a8e38299e3828de3818be38199, -- おどろかす
  0xe3818ae381afe38299e38195e38293, -- おばさん
  0xe3818ae381bee38184e3828a, -- おまいり
  0xe3818ae38281e381a6e38299e381a8e38186, -- おめでとう
  0xe3818ae38282e38184e381a6e38299, -- おもいで
  0xe3818ae38282e38186, -- おもう
  0xe3818ae38282e3819fe38184, -- おもたい
  0xe3818ae38282e381a1e38283, -- おもちゃ
  0xe3818ae38284e381a4, -- おやつ
  0xe3818ae38284e38286e381b2e38299, -- おやゆび
  0xe3818ae38288e381bbe38299e38199, -- およぼす
  0xe3818ae38289e38293e3819fe38299, -- おらんだ
  0xe3818ae3828de38199, -- おろす
  0xe3818ae38293e3818be38299e3818f, -- おんがく
  0xe3818ae38293e38191e38184, -- おんけい
  0xe3818ae38293e38197e38283, -- おんしゃ
  0xe3818ae38293e3819be38293, -- おんせん
  0xe3818ae38293e3819fe38299e38293, -- おんだん
  0xe3818ae38293e381a1e38285e38186, -- おんちゅう
  0xe3818ae38293e381a8e38299e38191e38184, -- おんどけい
  0xe3818be38182e381a4, -- かあつ
  0xe3818be38184e3818be38299, -- かいが
  0xe3818be38299e38184e3818d, -- がいき
  0xe3818be38299e38184e38191e38293, -- がいけん
  0xe3818be38299e38184e38193e38186, -- がいこう
  0xe3818be38184e38195e381a4, -- かいさつ
  0xe3818be38184e38197e38283, -- かいしゃ
  0xe3818be38184e38199e38184e38288e3818f, -- かいすいよく
  0xe3818be38184e3819be38299e38293, -- かいぜん
  0xe3818be38184e3819de38299e38186e381a8e38299, -- かいぞうど
  0xe3818be38184e381a4e38186, -- かいつう
  0xe3818be38184e381a6e38293, -- かいてん
  0xe3818be38184e381a8e38186, -- かいとう
  0xe3818be38184e381b5e3818f, -- かいふく
  0xe3818be38299e38184e381b8e3818d, -- がいへき
  0xe3818be38184e381bbe38186, -- かいほう
  0xe3818be38184e38288e38186, -- かいよう
  0xe3818be38299e38184e38289e38184, -- がいらい
  0xe3818be38184e3828f, -- かいわ
  0xe3818be38188e3828b, -- かえる
  0xe3818be3818ae3828a, -- かおり
  0xe3818be3818be38188e3828b, -- かかえる
  0xe3818be3818be38299e3818f, -- かがく
  0xe3818be3818be38299e38197, -- かがし
  0xe3818be3818be38299e381bf, -- かがみ
  0xe3818be3818fe38193e38299, -- かくご
  0xe3818be3818fe381a8e3818f, -- かくとく
  0xe3818be38195e38299e3828b, -- かざる
  0xe3818be38299e3819de38299e38186, -- がぞう
  0xe3818be3819fe38184, -- かたい
  0xe3818be3819fe381a1, -- かたち
  0xe3818be38299e381a1e38287e38186, -- がちょう
  0xe3818be38299e381a3e3818de38285e38186, -- がっきゅう
  0xe3818be38299e381a3e38193e38186, -- がっこう
  0xe3818be38299e381a3e38195e38293, -- がっさん
  0xe3818be38299e381a3e38197e38287e38186, -- がっしょう
  0xe3818be381aae38195e38299e3828fe38197, -- かなざわし
  0xe3818be381aee38186, -- かのう
  0xe3818be38299e381afe3818f, -- がはく
  0xe3818be381b5e38299e3818b, -- かぶか
  0xe3818be381bbe38186, -- かほう
  0xe3818be381bbe38193e38299, -- かほご
  0xe3818be381bee38186, -- かまう
  0xe3818be381bee381bbe38299e38193, -- かまぼこ
  0xe3818be38281e3828ce3818ae38293, -- かめれおん
  0xe3818be38286e38184, -- かゆい
  0xe3818be38288e38186e381b2e38299, -- かようび
  0xe3818be38289e38184, -- からい
  0xe3818be3828be38184, -- かるい
  0xe3818be3828de38186, -- かろう
  0xe3818be3828fe3818f, -- かわく
  0xe3818be3828fe38289, -- かわら
  0xe3818be38299e38293e3818b, -- がんか
  0xe3818be38293e38191e38184, -- かんけい
  0xe3818be38293e38193e38186, -- かんこう
  0xe3818be38293e38197e38283, -- かんしゃ
  0xe3818be38293e3819de38186, -- かんそう
  0xe3818be38293e3819fe38293, -- かんたん
  0xe3818be38293e381a1, -- かんち
  0xe3818be38299e38293e381afe38299e3828b, -- がんばる
  0xe3818de38182e38184, -- きあい
  0xe3818de38182e381a4, -- きあつ
  0xe3818de38184e3828d, -- きいろ
  0xe3818de38299e38184e38293, -- ぎいん
  0xe3818de38186e38184, -- きうい
  0xe3818de38186e38293, -- きうん
  0xe3818de38188e3828b, -- きえる
  0xe3818de3818ae38186, -- きおう
  0xe3818de3818ae3818f, -- きおく
  0xe3818de3818ae381a1, -- きおち
  0xe3818de3818ae38293, -- きおん
  0xe3818de3818be38184, -- きかい
  0xe3818de3818be3818f, -- きかく
  0xe3818de3818be38293e38197e38283, -- きかんしゃ
  0xe3818de3818de381a6, -- ききて
  0xe3818de3818fe381afe38299e3828a, -- きくばり
  0xe3818de3818fe38289e38191e38299, -- きくらげ
  0xe3818de38191e38293e3819be38184, -- きけんせい
  0xe3818de38193e38186, -- きこう
  0xe3818de38193e38188e3828b, -- きこえる
  0xe3818de38193e3818f, -- きこく
  0xe3818de38195e38184, -- きさい
  0xe3818de38195e3818f, -- きさく
  0xe3818de38195e381be, -- きさま
  0xe3818de38195e38289e3818de38299, -- きさらぎ
  0xe3818de38299e38197e38299e3818be3818be38299e3818f, -- ぎじかがく
  0xe3818de38299e38197e3818d, -- ぎしき
  0xe3818de38299e38197e38299e3819fe38184e38191e38293, -- ぎじたいけん
  0xe3818de38299e38197e38299e381abe381a3e381a6e38184, -- ぎじにってい
  0xe3818de38299e38197e38299e38285e381a4e38197e38283, -- ぎじゅつしゃ
  0xe3818de38199e38186, -- きすう
  0xe3818de3819be38184, -- きせい
  0xe3818de3819be3818d, -- きせき
  0xe3818de3819be381a4, -- きせつ
  0xe3818de3819de38186, -- きそう
  0xe3818de3819de38299e3818f, -- きぞく
  0xe3818de3819de38299e38293, -- きぞん
  0xe3818de3819fe38188e3828b, -- きたえる
  0xe3818de381a1e38287e38186, -- きちょう
  0xe3818de381a4e38188e38293, -- きつえん
  0xe3818de38299e381a3e381a1e3828a, -- ぎっちり
  0xe3818de381a4e381a4e3818d, -- きつつき
  0xe3818de381a4e381ad, -- きつね
  0xe3818de381a6e38184, -- きてい
  0xe3818de381a8e38299e38186, -- きどう
  0xe3818de381a8e38299e3818f, -- きどく
  0xe3818de381aae38184, -- きない
  0xe3818de381aae3818be38299, -- きなが
  0xe3818de381aae38193, -- きなこ
  0xe3818de381ace38193e38299e38197, -- きぬごし
  0xe3818de381ade38293, -- きねん
  0xe3818de381aee38186, -- きのう
  0xe3818de381aee38197e3819f, -- きのした
  0xe3818de381afe3818f, -- きはく
  0xe3818de381b2e38299e38197e38184, -- きびしい
  0xe3818de381b2e38293, -- きひん
  0xe3818de381b5e3818f, -- きふく
  0xe3818de381b5e38299e38293, -- きぶん
  0xe3818de381bbe38299e38186, -- きぼう
  0xe3818de381bbe38293, -- きほん
  0xe3818de381bee3828b, -- きまる
  0xe3818de381bfe381a4, -- きみつ
  0xe3818de38280e38199e38299e3818be38197e38184, -- きむずかしい
  0xe3818de38281e3828b, -- きめる
  0xe3818de38282e3819fe38299e38281e38197, -- きもだめし
  0xe3818de38282e381a1, -- きもち
  0xe3818de38282e381ae, -- きもの
  0xe3818de38283e3818f, -- きゃく
  0xe3818de38284e3818f, -- きやく
  0xe3818de38299e38285e38186e381abe3818f, -- ぎゅうにく
  0xe3818de38288e38186, -- きよう
  0xe3818de38287e38186e3828ae38285e38186, -- きょうりゅう
  0xe3818de38289e38184, -- きらい
  0xe3818de38289e3818f, -- きらく
  0xe3818de3828ae38293, -- きりん
  0xe3818de3828ce38184, -- きれい
  0xe3818de3828ce381a4, -- きれつ
  0xe3818de3828de3818f, -- きろく
  0xe3818de38299e3828de38293, -- ぎろん
  0xe3818de3828fe38281e3828b, -- きわめる
  0xe3818de38299e38293e38184e3828d, -- ぎんいろ
  0xe3818de38293e3818be3818fe38197e38299, -- きんかくじ
  0xe3818de38293e38197e38299e38287, -- きんじょ
  0xe3818de38293e38288e38186e381b2e38299, -- きんようび
  0xe3818fe38299e38182e38184, -- ぐあい
  0xe3818fe38184e38199e38299, -- くいず
  0xe3818fe38186e3818be38293, -- くうかん
  0xe3818fe38186e3818d, -- くうき
  0xe3818fe38186e3818fe38299e38293, -- くうぐん
  0xe3818fe38186e38193e38186, -- くうこう
  0xe3818fe38299e38186e3819be38184, -- ぐうせい
  0xe3818fe38186e3819de38186, -- くうそう
  0xe3818fe38299e38186e3819fe38289, -- ぐうたら
  0xe3818fe38186e381b5e3818f, -- くうふく
  0xe3818fe38186e381bbe38299, -- くうぼ
  0xe3818fe3818be38293, -- くかん
  0xe3818fe3818de38287e38186, -- くきょう
  0xe3818fe38191e38299e38293, -- くげん
  0xe3818fe38299e38193e38186, -- ぐこう
  0xe3818fe38195e38184, -- くさい
  0xe3818fe38195e3818d, -- くさき
  0xe3818fe38195e381afe38299e381aa, -- くさばな
  0xe3818fe38195e3828b, -- くさる
  0xe3818fe38197e38283e381bf, -- くしゃみ
  0xe3818fe38197e38287e38186, -- くしょう
  0xe3818fe38199e381aee3818d, -- くすのき
  0xe3818fe38199e3828ae38286e381b2e38299, -- くすりゆび
  0xe3818fe3819be38191e38299, -- くせげ
  0xe3818fe3819be38293, -- くせん
  0xe3818fe38299e3819fe38184e381a6e3818d, -- ぐたいてき
  0xe3818fe3819fe38299e38195e3828b, -- くださる
  0xe3818fe3819fe381b2e38299e3828ce3828b, -- くたびれる
  0xe3818fe381a1e38193e381bf, -- くちこみ
  0xe3818fe381a1e38195e3818d, -- くちさき
  0xe3818fe381a4e38197e3819f, -- くつした
  0xe3818fe38299e381a3e38199e3828a, -- ぐっすり
  0xe3818fe381a4e3828de3818fe38299, -- くつろぐ
  0xe3818fe381a8e38186e381a6e38293, -- くとうてん
  0xe3818fe381a8e38299e3818f, -- くどく
  0xe3818fe381aae38293, -- くなん
  0xe3818fe381ade3818fe381ad, -- くねくね
  0xe3818fe381aee38186, -- くのう
  0xe3818fe381b5e38186, -- くふう
  0xe3818fe381bfe38182e3828fe3819b, -- くみあわせ
  0xe3818fe381bfe3819fe381a6e3828b, -- くみたてる
  0xe3818fe38281e3828b, -- くめる
  0xe3818fe38284e3818fe38197e38287, -- くやくしょ
  0xe3818fe38289e38199, -- くらす
  0xe3818fe38289e381b8e38299e3828b, -- くらべる
  0xe3818fe3828be381be, -- くるま
  0xe3818fe3828ce3828b, -- くれる
  0xe3818fe3828de38186, -- くろう
  0xe3818fe3828fe38197e38184, -- くわしい
  0xe3818fe38299e38293e3818be38293, -- ぐんかん
  0xe3818fe38299e38293e38197e38287e3818f, -- ぐんしょく
  0xe3818fe38299e38293e3819fe38184, -- ぐんたい
  0xe3818fe38299e38293e381a6, -- ぐんて
  0xe38191e38182e381aa, -- けあな
  0xe38191e38184e3818be3818f, -- けいかく
  0xe38191e38184e38191e38293, -- けいけん
  0xe38191e38184e38193, -- けいこ
  0xe38191e38184e38195e381a4, -- けいさつ
  0xe38191e38299e38184e38197e38299e38285e381a4, -- げいじゅつ
  0xe38191e38184e3819fe38184, -- けいたい
  0xe38191e38299e38184e381aee38186e38197e38299e38293, -- げいのうじん
  0xe38191e38184e3828ce3818d, -- けいれき
  0xe38191e38184e3828d, -- けいろ
  0xe38191e3818ae381a8e38199, -- けおとす
  0xe38191e3818ae3828ae38282e381ae, -- けおりもの
  0xe38191e38299e3818de3818b, -- げきか
  0xe38191e38299e3818de38191e38299e38293, -- げきげん
  0xe38191e38299e3818de3819fe38299e38293, -- げきだん
  0xe38191e38299e3818de381a1e38293, -- げきちん
  0xe38191e38299e3818de381a8e381a4, -- げきとつ
  0xe38191e38299e3818de381af, -- げきは
  0xe38191e38299e3818de38284e3818f, -- げきやく
  0xe38191e38299e38193e38186, -- げこう
  0xe38191e38299e38193e3818fe38197e38299e38287e38186, -- げこくじょう
  0xe38191e38299e38195e38299e38184, -- げざい
  0xe38191e38195e3818d, -- けさき
  0xe38191e38299e38195e38299e38293, -- げざん
  0xe38191e38197e3818d, -- けしき
  0xe38191e38197e38193e38299e38280, -- けしごむ
  0xe38191e38197e38287e38186, -- けしょう
  0xe38191e38299e38199e381a8, -- げすと
  0xe38191e3819fe381afe38299, -- けたば
  0xe38191e381a1e38283e381a3e381b5e3829a, -- けちゃっぷ
  0xe38191e381a1e38289e38199, -- けちらす
  0xe38191e381a4e38182e381a4, -- けつあつ
  0xe38191e381a4e38184, -- けつい
  0xe38191e381a4e38188e3818d, -- けつえき
  0xe38191e381a3e38193e38293, -- けっこん
  0xe38191e381a4e38197e38299e38287, -- けつじょ
  0xe38191e381a3e3819be3818d, -- けっせき
  0xe38191e381a3e381a6e38184, -- けってい
  0xe38191e381a4e381bee381a4, -- けつまつ
  0xe38191e38299e381a4e38288e38186e381b2e38299, -- げつようび
  0xe38191e38299e381a4e3828ce38184, -- げつれい
  0xe38191e381a4e3828de38293, -- けつろん
  0xe38191e38299e381a8e38299e3818f, -- げどく
  0xe38191e381a8e381afe38299e38199, -- けとばす
  0xe38191e381a8e3828b, -- けとる
  0xe38191e381aae38191e38299, -- けなげ
  0xe38191e381aae38199, -- けなす
  0xe38191e381aae381bf, -- けなみ
  0xe38191e381ace3818d, -- けぬき
  0xe38191e38299e381ade381a4, -- げねつ
  0xe38191e381ade38293, -- けねん
  0xe38191e381afe38184, -- けはい
  0xe38191e38299e381b2e38293, -- げひん
  0xe38191e381b5e38299e3818be38184, -- けぶかい
  0xe38191e38299e381bbe38299e3818f, -- げぼく
  0xe38191e381bee3828a, -- けまり
  0xe38191e381bfe3818be3828b, -- けみかる
  0xe38191e38280e38197, -- けむし
  0xe38191e38280e3828a, -- けむり
  0xe38191e38282e381ae, -- けもの
  0xe38191e38289e38184, -- けらい
  0xe38191e3828de38191e3828d, -- けろけろ
  0xe38191e3828fe38197e38184, -- けわしい
  0xe38191e38293e38184, -- けんい
  0xe38191e38293e38188e381a4, -- けんえつ
  0xe38191e38293e3818a, -- けんお
  0xe38191e38293e3818b, -- けんか
  0xe38191e38299e38293e3818d, -- げんき
  0xe38191e38293e38191e38299e38293, -- けんげん
  0xe38191e38293e38193e38186, -- けんこう
  0xe38191e38293e38195e3818f, -- けんさく
  0xe38191e38293e38197e38285e38186, -- けんしゅう
  0xe38191e38293e38199e38186, -- けんすう
  0xe38191e38299e38293e3819de38186, -- げんそう
  0xe38191e38293e381a1e3818f, -- けんちく
  0xe38191e38293e381a6e38184, -- けんてい
  0xe38191e38293e381a8e38186, -- けんとう
  0xe38191e38293e381aae38184, -- けんない
  0xe38191e38293e381abe38293, -- けんにん
  0xe38191e38299e38293e381b5e38299e381a4, -- げんぶつ
  0xe38191e38293e381be, -- けんま
  0xe38191e38293e381bfe38293, -- けんみん
  0xe38191e38293e38281e38184, -- けんめい
  0xe38191e38293e38289e38293, -- けんらん
  0xe38191e38293e3828a, -- けんり
  0xe38193e38182e3818fe381be, -- こあくま
  0xe38193e38184e381ac, -- こいぬ
  0xe38193e38184e381b2e38299e381a8, -- こいびと
  0xe38193e38299e38186e38184, -- ごうい
  0xe38193e38186e38188e38293, -- こうえん
  0xe38193e38186e3818ae38293, -- こうおん
  0xe38193e38186e3818be38293, -- こうかん
  0xe38193e38299e38186e3818de38285e38186, -- ごうきゅう
  0xe38193e38299e38186e38191e38184, -- ごうけい
  0xe38193e38186e38193e38186, -- こうこう
  0xe38193e38186e38195e38184, -- こうさい
  0xe38193e38186e38197e38299, -- こうじ
  0xe38193e38186e38199e38184, -- こうすい
  0xe38193e38299e38186e3819be38184, -- ごうせい
  0xe38193e38186e3819de3818f, -- こうそく
  0xe38193e38186e3819fe38184, -- こうたい
  0xe38193e38186e381a1e38283, -- こうちゃ
  0xe38193e38186e381a4e38186, -- こうつう
  0xe38193e38186e381a6e38184, -- こうてい
  0xe38193e38186e381a8e38299e38186, -- こうどう
  0xe38193e38186e381aae38184, -- こうない
  0xe38193e38186e381afe38184, -- こうはい
  0xe38193e38299e38186e381bbe38186, -- ごうほう
  0xe38193e38299e38186e381bee38293, -- ごうまん
  0xe38193e38186e38282e3818f, -- こうもく
  0xe38193e38186e3828ae381a4, -- こうりつ
  0xe38193e38188e3828b, -- こえる
  0xe38193e3818ae3828a, -- こおり
  0xe38193e38299e3818be38184, -- ごかい
  0xe38193e38299e3818be38299e381a4, -- ごがつ
  0xe38193e38299e3818be38293, -- ごかん
  0xe38193e3818fe38193e38299, -- こくご
  0xe38193e3818fe38195e38184, -- こくさい
  0xe38193e3818fe381a8e38186, -- こくとう
  0xe38193e3818fe381aae38184, -- こくない
  0xe38193e3818fe381afe3818f, -- こくはく
  0xe38193e3818fe38299e381be, -- こぐま
  0xe38193e38191e38184, -- こけい
  0xe38193e38191e3828b, -- こける
  0xe38193e38193e381aee3818b, -- ここのか
  0xe38193e38193e3828d, -- こころ
  0xe38193e38195e38281, -- こさめ
  0xe38193e38197e381a4, -- こしつ
  0xe38193e38199e38186, -- こすう
  0xe38193e3819be38184, -- こせい
  0xe38193e3819be3818d, -- こせき
  0xe38193e3819be38299e38293, -- こぜん
  0xe38193e3819de3819fe38299e381a6, -- こそだて
  0xe38193e3819fe38184, -- こたい
  0xe38193e3819fe38188e3828b, -- こたえる
  0xe38193e3819fe381a4, -- こたつ
  0xe38193e381a1e38287e38186, -- こちょう
  0xe38193e381a3e3818b, -- こっか
  0xe38193e381a4e38193e381a4, -- こつこつ
  0xe38193e381a4e381afe38299e38293, -- こつばん
  0xe38193e381a4e381b5e38299, -- こつぶ
  0xe38193e381a6e38184, -- こてい
  0xe38193e381a6e38293, -- こてん
  0xe38193e381a8e3818be38299e38289, -- ことがら
  0xe38193e381a8e38197, -- ことし
  0xe38193e381a8e381afe38299, -- ことば
  0xe38193e381a8e3828a, -- ことり
  0xe38193e381aae38193e38299e381aa, -- こなごな
  0xe38193e381ade38193e381ad, -- こねこね
  0xe38193e381aee381bee381be, -- このまま
  0xe38193e381aee381bf, -- このみ
  0xe38193e381aee38288, -- このよ
  0xe38193e38299e381afe38293, -- ごはん
  0xe38193e381b2e381a4e38197e38299, -- こひつじ
  0xe38193e381b5e38186, -- こふう
  0xe38193e381b5e38293, -- こふん
  0xe38193e381bbe38299e3828ce3828b, -- こぼれる
  0xe38193e38299e381bee38182e381b5e38299e38289, -- ごまあぶら
  0xe38193e381bee3818be38184, -- こまかい
  0xe38193e38299e381bee38199e3828a, -- ごますり
  0xe38193e381bee381a4e381aa, -- こまつな
  0xe38193e381bee3828b, -- こまる
  0xe38193e38280e3818de38299e38193, -- こむぎこ
  0xe38193e38282e38197e38299, -- こもじ
  0xe38193e38282e381a1, -- こもち
  0xe38193e38282e381ae, -- こもの
  0xe38193e38282e38293, -- こもん
  0xe38193e38284e3818f, -- こやく
  0xe38193e38284e381be, -- こやま
  0xe38193e38286e38186, -- こゆう
  0xe38193e38286e381b2e38299, -- こゆび
  0xe38193e38288e38184, -- こよい
  0xe38193e38288e38186, -- こよう
  0xe38193e3828ae3828b, -- こりる
  0xe38193e3828ce3818fe38197e38287e38293, -- これくしょん
  0xe38193e3828de381a3e38191, -- ころっけ
  0xe38193e3828fe38282e381a6, -- こわもて
  0xe38193e3828fe3828ce3828b, -- こわれる
  0xe38193e38293e38184e38293, -- こんいん
  0xe38193e38293e3818be38184, -- こんかい
  0xe38193e38293e3818d, -- こんき
  0xe38193e38293e38197e38285e38186, -- こんしゅう
  0xe38193e38293e38199e38184, -- こんすい
  0xe38193e38293e3819fe38299e381a6, -- こんだて
  0xe38193e38293e381a8e38293, -- こんとん
  0xe38193e38293e381aae38293, -- こんなん
  0xe38193e38293e381b2e38299e381ab, -- こんびに
  0xe38193e38293e381bbe3829ae38293, -- こんぽん
  0xe38193e38293e381bee38191, -- こんまけ
  0xe38193e38293e38284, -- こんや
  0xe38193e38293e3828ce38184, -- こんれい
  0xe38193e38293e3828fe3818f, -- こんわく
  0xe38195e38299e38184e38188e3818d, -- ざいえき
  0xe38195e38184e3818be38184, -- さいかい
  0xe38195e38184e3818de38293, -- さいきん
  0xe38195e38299e38184e38191e38299e38293, -- ざいげん
  0xe38195e38299e38184e38193, -- ざいこ
  0xe38195e38184e38197e38287, -- さいしょ
  0xe38195e38184e3819be38184, -- さいせい
  0xe38195e38299e38184e3819fe3818f, -- ざいたく
  0xe38195e38299e38184e381a1e38285e38186, -- ざいちゅう
  0xe38195e38184e381a6e3818d, -- さいてき
  0xe38195e38299e38184e3828ae38287e38186, -- ざいりょう
  0xe38195e38186e381aa, -- さうな
  0xe38195e3818be38184e38197, -- さかいし
  0xe38195e3818be38299e38199, -- さがす
  0xe38195e3818be381aa, -- さかな
  0xe38195e3818be381bfe381a1, -- さかみち
  0xe38195e3818be38299e3828b, -- さがる
  0xe38195e3818de38299e38287e38186, -- さぎょう
  0xe38195e3818fe38197, -- さくし
  0xe38195e3818fe381b2e38293, -- さくひん
  0xe38195e3818fe38289, -- さくら
  0xe38195e38193e3818f, -- さこく
  0xe38195e38193e381a4, -- さこつ
  0xe38195e38199e38299e3818be3828b, -- さずかる
  0xe38195e38299e3819be3818d, -- ざせき
  0xe38195e3819fe38293, -- さたん
  0xe38195e381a4e38188e38184, -- さつえい
  0xe38195e38299e381a4e3818ae38293, -- ざつおん
  0xe38195e38299e381a3e3818b, -- ざっか
  0xe38195e38299e381a4e3818be38299e3818f, -- ざつがく
  0xe38195e381a3e3818de38287e3818f, -- さっきょく
  0xe38195e38299e381a3e38197, -- ざっし
  0xe38195e381a4e38197e38299e38293, -- さつじん
  0xe38195e38299e381a3e3819de38186, -- ざっそう
  0xe38195e381a4e3819fe381afe38299, -- さつたば
  0xe38195e381a4e381bee38184e38282, -- さつまいも
  0xe38195e381a6e38184, -- さてい
  0xe38195e381a8e38184e38282, -- さといも
  0xe38195e381a8e38186, -- さとう
  0xe38195e381a8e3818ae38284, -- さとおや
  0xe38195e381a8e38197, -- さとし
  0xe38195e381a8e3828b, -- さとる
  0xe38195e381aee38186, -- さのう
  0xe38195e381afe38299e3818f, -- さばく
  0xe38195e381b2e38299e38197e38184, -- さびしい
  0xe38195e381b8e38299e381a4, -- さべつ
  0xe38195e381bbe38186, -- さほう
  0xe38195e381bbe381a8e38299, -- さほど
  0xe38195e381bee38199, -- さます
  0xe38195e381bfe38197e38184, -- さみしい
  0xe38195e381bfe3819fe38299e3828c, -- さみだれ
  0xe38195e38280e38191, -- さむけ
  0xe38195e38281e3828b, -- さめる
  0xe38195e38284e38188e38293e381a8e38299e38186, -- さやえんどう
  0xe38195e38286e38186, -- さゆう
  0xe38195e38288e38186, -- さよう
  0xe38195e38288e3818f, -- さよく
  0xe38195e38289e3819fe38299, -- さらだ
  0xe38195e38299e3828be3819de381afe38299, -- ざるそば
  0xe38195e3828fe38284e3818b, -- さわやか
  0xe38195e3828fe3828b, -- さわる
  0xe38195e38293e38184e38293, -- さんいん
  0xe38195e38293e3818b, -- さんか
  0xe38195e38293e3818de38283e3818f, -- さんきゃく
  0xe38195e38293e38193e38186, -- さんこう
  0xe38195e38293e38195e38184, -- さんさい
  0xe38195e38299e38293e38197e38287, -- ざんしょ
  0xe38195e38293e38199e38186, -- さんすう
  0xe38195e38293e3819be38184, -- さんせい
  0xe38195e38293e3819d, -- さんそ
  0xe38195e38293e381a1, -- さんち
  0xe38195e38293e381be, -- さんま
  0xe38195e38293e381bf, -- さんみ
  0xe38195e38293e38289e38293, -- さんらん
  0xe38197e38182e38184, -- しあい
  0xe38197e38182e38191e38299, -- しあげ
  0xe38197e38182e38195e381a3e381a6, -- しあさって
  0xe38197e38182e3828fe3819b, -- しあわせ
  0xe38197e38184e3818f, -- しいく
  0xe38197e38184e38293, -- しいん
  0xe38197e38186e381a1, -- しうち
  0xe38197e38188e38184, -- しえい
  0xe38197e3818ae38191, -- しおけ
  0xe38197e3818be38184, -- しかい
  0xe38197e3818be3818f, -- しかく
  0xe38197e38299e3818be38293, -- じかん
  0xe38197e38193e38299e381a8, -- しごと
  0xe38197e38199e38186, -- しすう
  0xe38197e38299e3819fe38299e38184, -- じだい
  0xe38197e3819fe38186e38191, -- したうけ
  0xe38197e3819fe3818de38299, -- したぎ
  0xe38197e3819fe381a6, -- したて
  0xe38197e3819fe381bf, -- したみ
  0xe38197e381a1e38287e38186, -- しちょう
  0xe38197e381a1e3828ae38293, -- しちりん
  0xe38197e381a3e3818be3828a, -- しっかり
  0xe38197e381a4e38197e38299, -- しつじ
  0xe38197e381a4e38282e38293, -- しつもん
  0xe38197e381a6e38184, -- してい
  0xe38197e381a6e3818d, -- してき
  0xe38197e381a6e381a4, -- してつ
  0xe38197e38299e381a6e38293, -- じてん
  0xe38197e38299e381a8e38299e38186, -- じどう
  0xe38197e381aae3818de38299e3828c, -- しなぎれ
  0xe38197e381aae38282e381ae, -- しなもの
  0xe38197e381aae38293, -- しなん
  0xe38197e381ade381be, -- しねま
  0xe38197e381ade38293, -- しねん
  0xe38197e381aee3818fe38299, -- しのぐ
  0xe38197e381aee381b5e38299, -- しのぶ
  0xe38197e381afe38184, -- しはい
  0xe38197e381afe38299e3818be3828a, -- しばかり
  0xe38197e381afe381a4, -- しはつ
  0xe38197e381afe38289e38184, -- しはらい
  0xe38197e381afe38293, -- しはん
  0xe38197e381b2e38287e38186, -- しひょう
  0xe38197e381b5e3818f, -- しふく
  0xe38197e38299e381b5e38299e38293, -- じぶん
  0xe38197e381b8e38184, -- しへい
  0xe38197e381bbe38186, -- しほう
  0xe38197e381bbe38293, -- しほん
  0xe38197e381bee38186, -- しまう
  0xe38197e381bee3828b, -- しまる
  0xe38197e381bfe38293, -- しみん
  0xe38197e38280e38191e3828b, -- しむける
  0xe38197e38299e38280e38197e38287, -- じむしょ
  0xe38197e38281e38184, -- しめい
  0xe38197e38281e3828b, -- しめる
  0xe38197e38282e38293, -- しもん
  0xe38197e38283e38184e38293, -- しゃいん
  0xe38197e38283e38186e38293, -- しゃうん
  0xe38197e38283e3818ae38293, -- しゃおん
  0xe38197e38299e38283e3818be38299e38184e38282, -- じゃがいも
  0xe38197e38284e3818fe38197e38287, -- しやくしょ
  0xe38197e38283e3818fe381bbe38186, -- しゃくほう
  0xe38197e38283e38191e38293, -- しゃけん
  0xe38197e38283e38193, -- しゃこ
  0xe38197e38283e38195e38299e38184, -- しゃざい
  0xe38197e38283e38197e38293, -- しゃしん
  0xe38197e38283e3819be38293, -- しゃせん
  0xe38197e38283e3819de38186, -- しゃそう
  0xe38197e38283e3819fe38184, -- しゃたい
  0xe38197e38283e381a1e38287e38186, -- しゃちょう
  0xe38197e38283e381a3e3818de38293, -- しゃっきん
  0xe38197e38299e38283e381be, -- じゃま
  0xe38197e38283e3828ae38293, -- しゃりん
  0xe38197e38283e3828ce38184, -- しゃれい
  0xe38197e38299e38286e38186, -- じゆう
  0xe38197e38299e38285e38186e38197e38287, -- じゅうしょ
  0xe38197e38285e3818fe381afe3818f, -- しゅくはく
  0xe38197e38299e38285e38197e38293, -- じゅしん
  0xe38197e38285e381a3e3819be3818d, -- しゅっせき
  0xe38197e38285e381bf, -- しゅみ
  0xe38197e38285e38289e381afe38299, -- しゅらば
  0xe38197e38299e38285e38293e381afe38299e38293, -- じゅんばん
  0xe38197e38287e38186e3818be38184, -- しょうかい
  0xe38197e38287e3818fe3819fe3818f, -- しょくたく
  0xe38197e38287e381a3e38191e38293, -- しょっけん
  0xe38197e38287e381a8e38299e38186, -- しょどう
  0xe38197e38287e38282e381a4, -- しょもつ
  0xe38197e38289e3819be3828b, -- しらせる
  0xe38197e38289e381b8e38299e3828b, -- しらべる
  0xe38197e38293e3818b, -- しんか
  0xe38197e38293e38193e38186, -- しんこう
  0xe38197e38299e38293e38197e38299e38283, -- じんじゃ
  0xe38197e38293e3819be38184e38197e38299, -- しんせいじ
  0xe38197e38293e381a1e3818f, -- しんちく
  0xe38197e38293e3828ae38293, -- しんりん
  0xe38199e38182e38191e38299, -- すあげ
  0xe38199e38182e38197, -- すあし
  0xe38199e38182e381aa, -- すあな
  0xe38199e38299e38182e38293, -- ずあん
  0xe38199e38184e38188e38184, -- すいえい
  0xe38199e38184e3818b, -- すいか
  0xe38199e38184e381a8e38186, -- すいとう
  0xe38199e38299e38184e381b5e38299e38293, -- ずいぶん
  0xe38199e38184e38288e38186e381b2e38299, -- すいようび
  0xe38199e38186e3818be38299e3818f, -- すうがく
  0xe38199e38186e38197e38299e381a4, -- すうじつ
  0xe38199e38186e3819be38293, -- すうせん
  0xe38199e3818ae381a8e38299e3828a, -- すおどり
  0xe38199e3818de381be, -- すきま
  0xe38199e3818fe38186, -- すくう
  0xe38199e3818fe381aae38184, -- すくない
  0xe38199e38191e3828b, -- すける
  0xe38199e38193e38299e38184, -- すごい
  0xe38199e38193e38197, -- すこし
  0xe38199e38299e38195e38293, -- ずさん
  0xe38199e38199e38299e38197e38184, -- すずしい
  0xe38199e38199e38280, -- すすむ
  0xe38199e38199e38281e3828b, -- すすめる
  0xe38199e381a3e3818be3828a, -- すっかり
  0xe38199e38299e381a3e38197e3828a, -- ずっしり
  0xe38199e38299e381a3e381a8, -- ずっと
  0xe38199e381a6e3818d, -- すてき
  0xe38199e381a6e3828b, -- すてる
  0xe38199e381ade3828b, -- すねる
  0xe38199e381aee38193, -- すのこ
  0xe38199e381afe3819fe38299, -- すはだ
  0xe38199e381afe38299e38289e38197e38184, -- すばらしい
  0xe38199e38299e381b2e38287e38186, -- ずひょう
  0xe38199e38299e381b5e38299e381ace3828c, -- ずぶぬれ
  0xe38199e381b5e38299e3828a, -- すぶり
  0xe38199e381b5e3828c, -- すふれ
  0xe38199e381b8e38299e381a6, -- すべて
  0xe38199e381b8e38299e3828b, -- すべる
  0xe38199e38299e381bbe38186, -- ずほう
  0xe38199e381bbe38299e38293, -- すぼん
  0xe38199e381bee38184, -- すまい
  0xe38199e38281e38197, -- すめし
  0xe38199e38282e38186, -- すもう
  0xe38199e38284e3818d, -- すやき
  0xe38199e38289e38199e38289, -- すらすら
  0xe38199e3828be38281, -- するめ
  0xe38199e3828ce381a1e3818be38299e38186, -- すれちがう
  0xe38199e3828de381a3e381a8, -- すろっと
  0xe38199e3828fe3828b, -- すわる
  0xe38199e38293e3819be38299e38293, -- すんぜん
  0xe38199e38293e381bbe3829ae38186, -- すんぽう
  0xe3819be38182e381b5e38299e38289, -- せあぶら
  0xe3819be38184e3818be381a4, -- せいかつ
  0xe3819be38184e38191e38299e38293, -- せいげん
  0xe3819be38184e38197e38299, -- せいじ
  0xe3819be38184e38288e38186, -- せいよう
  0xe3819be3818ae38186, -- せおう
  0xe3819be3818be38184e3818be38293, -- せかいかん
  0xe3819be3818de381abe38293, -- せきにん
  0xe3819be3818de38280, -- せきむ
  0xe3819be3818de38286, -- せきゆ
  0xe3819be3818de38289e38293e38186e38293, -- せきらんうん
  0xe3819be38191e38293, -- せけん
  0xe3819be38193e38186, -- せこう
  0xe3819be38199e38197e38299, -- せすじ
  0xe3819be3819fe38184, -- せたい
  0xe3819be3819fe38191, -- せたけ
  0xe3819be381a3e3818be3818f, -- せっかく
  0xe3819be381a3e3818de38283e3818f, -- せっきゃく
  0xe3819be38299e381a3e3818f, -- ぜっく
  0xe3819be381a3e38191e38293, -- せっけん
  0xe3819be381a3e38193e381a4, -- せっこつ
  0xe3819be381a3e38195e3819fe3818fe381be, -- せっさたくま
  0xe3819be381a4e3819de38299e3818f, -- せつぞく
  0xe3819be381a4e3819fe38299e38293, -- せつだん
  0xe3819be381a4e381a6e38299e38293, -- せつでん
  0xe3819be381a3e381afe3829ae38293, -- せっぱん
  0xe3819be381a4e381b2e38299, -- せつび
  0xe3819be381a4e381b5e38299e38293, -- せつぶん
  0xe3819be381a4e38281e38184, -- せつめい
  0xe3819be381a4e3828ae381a4, -- せつりつ
  0xe3819be381aae3818b, -- せなか
  0xe3819be381aee381b2e38299, -- せのび
  0xe3819be381afe381afe38299, -- せはば
  0xe3819be381b2e38299e3828d, -- せびろ
  0xe3819be381bbe38299e381ad, -- せぼね
  0xe3819be381bee38184, -- せまい
  0xe3819be381bee3828b, -- せまる
  0xe3819be38281e3828b, -- せめる
  0xe3819be38282e3819fe3828c, -- せもたれ
  0xe3819be3828ae381b5, -- せりふ
  0xe3819be38299e38293e38182e3818f, -- ぜんあく
  0xe3819be38293e38184, -- せんい
  0xe3819be38293e38188e38184, -- せんえい
  0xe3819be38293e3818b, -- せんか
  0xe3819be38293e3818de38287, -- せんきょ
  0xe3819be38293e3818f, -- せんく
  0xe3819be38293e38191e38299e38293, -- せんげん
  0xe3819be38299e38293e38193e38299, -- ぜんご
  0xe3819be38293e38195e38184, -- せんさい
  0xe3819be38293e38197e38285, -- せんしゅ
  0xe3819be38293e38199e38184, -- せんすい
  0xe3819be38293e3819be38184, -- せんせい
  0xe3819be38293e3819de38299, -- せんぞ
  0xe3819be38293e3819fe3818f, -- せんたく
  0xe3819be38293e381a1e38287e38186, -- せんちょう
  0xe3819be38293e381a6e38184, -- せんてい
  0xe3819be38293e381a8e38186, -- せんとう
  0xe3819be38293e381ace3818d, -- せんぬき
  0xe3819be38293e381ade38293, -- せんねん
  0xe3819be38293e381afe3829ae38184, -- せんぱい
  0xe3819be38299e38293e381b5e38299, -- ぜんぶ
  0xe3819be38299e38293e381bbe3829ae38186, -- ぜんぽう
  0xe3819be38293e38280, -- せんむ
  0xe3819be38293e38281e38293e38197e38299e38287, -- せんめんじょ
  0xe3819be38293e38282e38293, -- せんもん
  0xe3819be38293e38284e3818f, -- せんやく
  0xe3819be38293e38286e38186, -- せんゆう
  0xe3819be38293e38288e38186, -- せんよう
  0xe3819be38299e38293e38289, -- ぜんら
  0xe3819be38299e38293e3828ae38283e3818f, -- ぜんりゃく
  0xe3819be38293e3828ce38184, -- せんれい
  0xe3819be38293e3828d, -- せんろ
  0xe3819de38182e3818f, -- そあく
  0xe3819de38184e381a8e38191e38299e3828b, -- そいとげる
  0xe3819de38184e381ad, -- そいね
  0xe3819de38186e3818be38299e38293e3818de38287e38186, -- そうがんきょう
  0xe3819de38186e3818d, -- そうき
  0xe3819de38186e38193e38299, -- そうご
  0xe3819de38186e38197e38293, -- そうしん
  0xe3819de38186e3819fe38299e38293, -- そうだん
  0xe3819de38186e381aae38293, -- そうなん
  0xe3819de38186e381b2e38299, -- そうび
  0xe3819de38186e38281e38293, -- そうめん
  0xe3819de38186e3828a, -- そうり
  0xe3819de38188e38282e381ae, -- そえもの
  0xe3819de38188e38293, -- そえん
  0xe3819de3818be38299e38184, -- そがい
  0xe3819de38191e38299e3818d, -- そげき
  0xe3819de38193e38186, -- そこう
  0xe3819de38193e3819de38193, -- そこそこ
  0xe3819de38195e38299e38184, -- そざい
  0xe3819de38197e381aa, -- そしな
  0xe3819de3819be38184, -- そせい
  0xe3819de3819be38293, -- そせん
  0xe3819de3819de3818fe38299, -- そそぐ
  0xe3819de3819fe38299e381a6e3828b, -- そだてる
  0xe3819de381a4e38186, -- そつう
  0xe3819de381a4e38188e38293, -- そつえん
  0xe3819de381a3e3818be38293, -- そっかん
  0xe3819de381a4e3818de38299e38287e38186, -- そつぎょう
  0xe3819de381a3e38191e381a4, -- そっけつ
  0xe3819de381a3e38193e38186, -- そっこう
  0xe3819de381a3e3819be38293, -- そっせん
  0xe3819de381a3e381a8, -- そっと
  0xe3819de381a8e3818be38299e3828f, -- そとがわ
  0xe3819de381a8e381a4e38299e38289, -- そとづら
  0xe3819de381aae38188e3828b, -- そなえる
  0xe3819de381aae3819f, -- そなた
  0xe3819de381b5e381bbe38299, -- そふぼ
  0xe3819de381bbe38299e3818f, -- そぼく
  0xe3819de381bbe38299e3828d, -- そぼろ
  0xe3819de381bee381a4, -- そまつ
  0xe3819de381bee3828b, -- そまる
  0xe3819de38280e3818f, -- そむく
  0xe3819de38280e3828ae38188, -- そむりえ
  0xe3819de38281e3828b, -- そめる
  0xe3819de38282e3819de38282, -- そもそも
  0xe3819de38288e3818be3819be38299, -- そよかぜ
  0xe3819de38289e381bee38281, -- そらまめ
  0xe3819de3828de38186, -- そろう
  0xe3819de38293e3818be38184, -- そんかい
  0xe3819de38293e38191e38184, -- そんけい
  0xe3819de38293e38195e38299e38184, -- そんざい
  0xe3819de38293e38197e381a4, -- そんしつ
  0xe3819de38293e3819de38299e3818f, -- そんぞく
  0xe3819de38293e381a1e38287e38186, -- そんちょう
  0xe3819de38299e38293e381b2e38299, -- ぞんび
  0xe3819de38299e38293e381b5e38299e38293, -- ぞんぶん
  0xe3819de38293e381bfe38293, -- そんみん
  0xe3819fe38182e38184, -- たあい
  0xe3819fe38184e38184e38293, -- たいいん
  0xe3819fe38184e38186e38293, -- たいうん
  0xe3819fe38184e38188e3818d, -- たいえき
  0xe3819fe38184e3818ae38186, -- たいおう
  0xe3819fe38299e38184e3818be38299e3818f, -- だいがく
  0xe3819fe38184e3818d, -- たいき
  0xe3819fe38184e3818fe38299e38186, -- たいぐう
  0xe3819fe38184e38191e38293, -- たいけん
  0xe3819fe38184e38193, -- たいこ
  0xe3819fe38184e38195e38299e38184, -- たいざい
  0xe3819fe38299e38184e38197e38299e38287e38186e381b5e38299, -- だいじょうぶ
  0xe3819fe38299e38184e38199e3818d, -- だいすき
  0xe3819fe38184e3819be381a4, -- たいせつ
  0xe3819fe38184e3819de38186, -- たいそう
  0xe3819fe38299e38184e3819fe38184, -- だいたい
  0xe3819fe38184e381a1e38287e38186, -- たいちょう
  0xe3819fe38184e381a6e38184, -- たいてい
  0xe3819fe38299e38184e381a8e38299e38193e3828d, -- だいどころ
  0xe3819fe38184e381aae38184, -- たいない
  0xe3819fe38184e381ade381a4, -- たいねつ
  0xe3819fe38184e381aee38186, -- たいのう
  0xe3819fe38184e381afe38293, -- たいはん
  0xe3819fe38299e38184e381b2e38287e38186, -- だいひょう
  0xe3819fe38184e381b5e38186, -- たいふう
  0xe3819fe38184e381b8e38293, -- たいへん
  0xe3819fe38184e381bb, -- たいほ
  0xe3819fe38184e381bee381a4e381afe38299e381aa, -- たいまつばな
  0xe3819fe38184e381bfe38293e3818fe38299, -- たいみんぐ
  0xe3819fe38184e38280, -- たいむ
  0xe3819fe38184e38281e38293, -- たいめん
  0xe3819fe38184e38284e3818d, -- たいやき
  0xe3819fe38184e38288e38186, -- たいよう
  0xe3819fe38184e38289, -- たいら
  0xe3819fe38184e3828ae38287e3818f, -- たいりょく
  0xe3819fe38184e3828b, -- たいる
  0xe3819fe38184e3828fe38293, -- たいわん
  0xe3819fe38186e38188, -- たうえ
  0xe3819fe38188e3828b, -- たえる
  0xe3819fe3818ae38199, -- たおす
  0xe3819fe3818ae3828b, -- たおる
  0xe3819fe3818ae3828ce3828b, -- たおれる
  0xe3819fe3818be38184, -- たかい
  0xe3819fe3818be381ad, -- たかね
  0xe3819fe3818de381b2e38299, -- たきび
  0xe3819fe3818fe38195e38293, -- たくさん
  0xe3819fe38193e3818f, -- たこく
  0xe3819fe38193e38284e3818d, -- たこやき
  0xe3819fe38195e38184, -- たさい
  0xe3819fe38197e38195e38299e38293, -- たしざん
  0xe3819fe38299e38197e38299e38283e3828c, -- だじゃれ
  0xe3819fe38199e38191e3828b, -- たすける
  0xe3819fe38199e38299e38195e3828fe3828b, -- たずさわる
  0xe3819fe3819de3818be38299e3828c, -- たそがれ
  0xe3819fe3819fe3818be38186, -- たたかう
  0xe3819fe3819fe3818f, -- たたく
  0xe3819fe3819fe38299e38197e38184, -- ただしい
  0xe3819fe3819fe381bf, -- たたみ
  0xe3819fe381a1e381afe38299e381aa, -- たちばな
  0xe3819fe38299e381a3e3818be38184, -- だっかい
  0xe3819fe38299e381a3e3818de38283e3818f, -- だっきゃく
  0xe3819fe38299e381a3e38193, -- だっこ
  0xe3819fe38299e381a3e38197e38285e381a4, -- だっしゅつ
  0xe3819fe38299e381a3e3819fe38184, -- だったい
  0xe3819fe381a6e3828b, -- たてる
  0xe3819fe381a8e38188e3828b, -- たとえる
  0xe3819fe381aae381afe38299e3819f, -- たなばた
  0xe3819fe381abe38293, -- たにん
  0xe3819fe381ace3818d, -- たぬき
  0xe3819fe381aee38197e381bf, -- たのしみ
  0xe3819fe381afe381a4, -- たはつ
  0xe3819fe381b5e38299e38293, -- たぶん
  0xe3819fe381b8e38299e3828b, -- たべる
  0xe3819fe381bbe38299e38186, -- たぼう
  0xe3819fe381bee38193e38299, -- たまご
  0xe3819fe381bee3828b, -- たまる
  0xe3819fe38299e38280e3828b, -- だむる
  0xe3819fe38281e38184e3818d, -- ためいき
  0xe3819fe38281e38199, -- ためす
  0xe3819fe38281e3828b, -- ためる
  0xe3819fe38282e381a4, -- たもつ
  0xe3819fe38284e38199e38184, -- たやすい
  0xe3819fe38288e3828b, -- たよる
  0xe3819fe38289e38199, -- たらす
  0xe3819fe3828ae3818de381bbe38293e3818be38299e38293, -- たりきほんがん
  0xe3819fe3828ae38287e38186, -- たりょう
  0xe3819fe3828ae3828b, -- たりる
  0xe3819fe3828be381a8, -- たると
  0xe3819fe3828ce3828b, -- たれる
  0xe3819fe3828ce38293e381a8, -- たれんと
  0xe3819fe3828de381a3e381a8, -- たろっと
  0xe3819fe3828fe38280e3828ce3828b, -- たわむれる
  0xe3819fe38299e38293e38182e381a4, -- だんあつ
  0xe3819fe38293e38184, -- たんい
  0xe3819fe38293e3818ae38293, -- たんおん
  0xe3819fe38293e3818b, -- たんか
  0xe3819fe38293e3818d, -- たんき
  0xe3819fe38293e38191e38293, -- たんけん
  0xe3819fe38293e38193e38299, -- たんご
  0xe3819fe38293e38195e38293, -- たんさん
  0xe3819fe38293e38197e38299e38287e38186e381b2e38299, -- たんじょうび
  0xe3819fe38299e38293e3819be38184, -- だんせい
  0xe3819fe38293e3819de3818f, -- たんそく
  0xe3819fe38293e3819fe38184, -- たんたい
  0xe3819fe38299e38293e381a1, -- だんち
  0xe3819fe38293e381a6e38184, -- たんてい
  0xe3819fe38293e381a8e38186, -- たんとう
  0xe3819fe38299e38293e381aa, -- だんな
  0xe3819fe38293e381abe38293, -- たんにん
  0xe3819fe38299e38293e381ade381a4, -- だんねつ
  0xe3819fe38293e381aee38186, -- たんのう
  0xe3819fe38293e381b2e3829ae38293, -- たんぴん
  0xe3819fe38299e38293e381bbe38299e38186, -- だんぼう
  0xe3819fe38293e381bee381a4, -- たんまつ
  0xe3819fe38293e38281e38184, -- たんめい
  0xe3819fe38299e38293e3828ce381a4, -- だんれつ
  0xe3819fe38299e38293e3828d, -- だんろ
  0xe3819fe38299e38293e3828f, -- だんわ
  0xe381a1e38182e38184, -- ちあい
  0xe381a1e38182e38293, -- ちあん
  0xe381a1e38184e3818d, -- ちいき
  0xe381a1e38184e38195e38184, -- ちいさい
  0xe381a1e38188e38293, -- ちえん
  0xe381a1e3818be38184, -- ちかい
  0xe381a1e3818be38289, -- ちから
  0xe381a1e3818de38285e38186, -- ちきゅう
  0xe381a1e3818de38293, -- ちきん
  0xe381a1e38191e38184e38199e38299, -- ちけいず
  0xe381a1e38191e38293, -- ちけん
  0xe381a1e38193e3818f, -- ちこく
  0xe381a1e38195e38184, -- ちさい
  0xe381a1e38197e3818d, -- ちしき
  0xe381a1e38197e3828ae38287e38186, -- ちしりょう
  0xe381a1e3819be38184, -- ちせい
  0xe381a1e3819de38186, -- ちそう
  0xe381a1e3819fe38184, -- ちたい
  0xe381a1e3819fe38293, -- ちたん
  0xe381a1e381a1e3818ae38284, -- ちちおや
  0xe381a1e381a4e38197e38299e38287, -- ちつじょ
  0xe381a1e381a6e3818d, -- ちてき
  0xe381a1e381a6e38293, -- ちてん
  0xe381a1e381ace3818d, -- ちぬき
  0xe381a1e381ace3828a, -- ちぬり
  0xe381a1e381aee38186, -- ちのう
  0xe381a1e381b2e38287e38186, -- ちひょう
  0xe381a1e381b8e38184e3819be38293, -- ちへいせん
  0xe381a1e381bbe38186, -- ちほう
  0xe381a1e381bee3819f, -- ちまた
  0xe381a1e381bfe381a4, -- ちみつ
  0xe381a1e381bfe381a8e38299e3828d, -- ちみどろ
  0xe381a1e38281e38184e381a8e38299, -- ちめいど
  0xe381a1e38283e38293e38193e381aae381b8e38299, -- ちゃんこなべ
  0xe381a1e38285e38186e38184, -- ちゅうい
  0xe381a1e38286e3828ae38287e3818f, -- ちゆりょく
  0xe381a1e38287e38186e38197, -- ちょうし
  0xe381a1e38287e38195e3818fe38191e38293, -- ちょさくけん
  0xe381a1e38289e38197, -- ちらし
  0xe381a1e38289e381bf, -- ちらみ
  0xe381a1e3828ae3818be38299e381bf, -- ちりがみ
  0xe381a1e3828ae38287e38186, -- ちりょう
  0xe381a1e3828be381a8e38299, -- ちるど
  0xe381a1e3828fe3828f, -- ちわわ
  0xe381a1e38293e3819fe38184, -- ちんたい
  0xe381a1e38293e38282e3818f, -- ちんもく
  0xe381a4e38184e3818b, -- ついか
  0xe381a4e38184e3819fe381a1, -- ついたち
  0xe381a4e38186e3818b, -- つうか
  0xe381a4e38186e38197e38299e38287e38186, -- つうじょう
  0xe381a4e38186e381afe38293, -- つうはん
  0xe381a4e38186e3828f, -- つうわ
  0xe381a4e3818be38186, -- つかう
  0xe381a4e3818be3828ce3828b, -- つかれる
  0xe381a4e3818fe381ad, -- つくね
  0xe381a4e3818fe3828b, -- つくる
  0xe381a4e38191e381ad, -- つけね
  0xe381a4e38191e3828b, -- つける
  0xe381a4e38193e38299e38186, -- つごう
  0xe381a4e3819fe38188e3828b, -- つたえる
  0xe381a4e381a4e38299e3818f, -- つづく
  0xe381a4e381a4e38197e38299, -- つつじ
  0xe381a4e381a4e38280, -- つつむ
  0xe381a4e381a8e38281e3828b, -- つとめる
  0xe381a4e381aae3818be38299e3828b, -- つながる
  0xe381a4e381aae381bf, -- つなみ
  0xe381a4e381ade381a4e38299e381ad, -- つねづね
  0xe381a4e381aee3828b, -- つのる
  0xe381a4e381b5e38299e38199, -- つぶす
  0xe381a4e381bee38289e381aae38184, -- つまらない
  0xe381a4e381bee3828b, -- つまる
  0xe381a4e381bfe3818d, -- つみき
  0xe381a4e38281e3819fe38184, -- つめたい
  0xe381a4e38282e3828a, -- つもり
  0xe381a4e38282e3828b, -- つもる
  0xe381a4e38288e38184, -- つよい
  0xe381a4e3828be381bbe38299, -- つるぼ
  0xe381a4e3828be381bfe3818f, -- つるみく
  0xe381a4e3828fe38282e381ae, -- つわもの
  0xe381a4e3828fe3828a, -- つわり
  0xe381a6e38182e38197, -- てあし
  0xe381a6e38182e381a6, -- てあて
  0xe381a6e38182e381bf, -- てあみ
  0xe381a6e38184e3818ae38293, -- ていおん
  0xe381a6e38184e3818b, -- ていか
  0xe381a6e38184e3818d, -- ていき
  0xe381a6e38184e38191e38184, -- ていけい
  0xe381a6e38184e38193e3818f, -- ていこく
  0xe381a6e38184e38195e381a4, -- ていさつ
  0xe381a6e38184e38197, -- ていし
  0xe381a6e38184e3819be38184, -- ていせい
  0xe381a6e38184e3819fe38184, -- ていたい
  0xe381a6e38184e381a8e38299, -- ていど
  0xe381a6e38184e381ade38184, -- ていねい
  0xe381a6e38184e381b2e38287e38186, -- ていひょう
  0xe381a6e38184e381b8e38293, -- ていへん
  0xe381a6e38184e381bbe38299e38186, -- ていぼう
  0xe381a6e38186e381a1, -- てうち
  0xe381a6e3818ae3818fe3828c, -- ておくれ
  0xe381a6e3818de381a8e38186, -- てきとう
  0xe381a6e3818fe381b2e38299, -- てくび
  0xe381a6e38299e38193e381bbe38299e38193, -- でこぼこ
  0xe381a6e38195e3818de38299e38287e38186, -- てさぎょう
  0xe381a6e38195e38191e38299, -- てさげ
  0xe381a6e38199e3828a, -- てすり
  0xe381a6e3819de38186, -- てそう
  0xe381a6e381a1e3818be38299e38184, -- てちがい
  0xe381a6e381a1e38287e38186, -- てちょう
  0xe381a6e381a4e3818be38299e3818f, -- てつがく
  0xe381a6e381a4e381a4e38299e3818d, -- てつづき
  0xe381a6e38299e381a3e381afe3829a, -- でっぱ
  0xe381a6e381a4e381bbe38299e38186, -- てつぼう
  0xe381a6e381a4e38284, -- てつや
  0xe381a6e38299e381ace3818be38188, -- でぬかえ
  0xe381a6e381ace3818d, -- てぬき
  0xe381a6e381ace3818fe38299e38184, -- てぬぐい
  0xe381a6e381aee381b2e38289, -- てのひら
  0xe381a6e381afe38184, -- てはい
  0xe381a6e381b5e38299e3818fe3828d, -- てぶくろ
  0xe381a6e381b5e3819fe38299, -- てふだ
  0xe381a6e381bbe381a8e38299e3818d, -- てほどき
  0xe381a6e381bbe38293, -- てほん
  0xe381a6e381bee38188, -- てまえ
  0xe381a6e381bee3818de38199e38299e38197, -- てまきずし
  0xe381a6e381bfe38197e38299e3818b, -- てみじか
  0xe381a6e381bfe38284e38191e38299, -- てみやげ
  0xe381a6e38289e38199, -- てらす
  0xe381a6e3828ce381b2e38299, -- てれび
  0xe381a6e3828fe38191, -- てわけ
  0xe381a6e3828fe3819fe38197, -- てわたし
  0xe381a6e38299e38293e38182e381a4, -- でんあつ
  0xe381a6e38293e38184e38293, -- てんいん
  0xe381a6e38293e3818be38184, -- てんかい
  0xe381a6e38293e3818d, -- てんき
  0xe381a6e38293e3818fe38299, -- てんぐ
  0xe381a6e38293e38191e38293, -- てんけん
  0xe381a6e38293e38193e38299e3818f, -- てんごく
  0xe381a6e38293e38195e38184, -- てんさい
  0xe381a6e38293e38197, -- てんし
  0xe381a6e38293e38199e38186, -- てんすう
  0xe381a6e38299e38293e381a1, -- でんち
  0xe381a6e38293e381a6e3818d, -- てんてき
  0xe381a6e38293e381a8e38186, -- てんとう
  0xe381a6e38293e381aae38184, -- てんない
  0xe381a6e38293e381b5e3829ae38289, -- てんぷら
  0xe381a6e38293e381bbe38299e38186e3819fe38299e38184, -- てんぼうだい
  0xe381a6e38293e38281e381a4, -- てんめつ
  0xe381a6e38293e38289e38293e3818be38184, -- てんらんかい
  0xe381a6e38299e38293e3828ae38287e3818f, -- でんりょく
  0xe381a6e38299e38293e3828f, -- でんわ
  0xe381a8e38299e38182e38184, -- どあい
  0xe381a8e38184e3828c, -- といれ
  0xe381a8e38299e38186e3818be38293, -- どうかん
  0xe381a8e38186e3818de38285e38186, -- とうきゅう
  0xe381a8e38299e38186e3818fe38299, -- どうぐ
  0xe381a8e38186e38197, -- とうし
  0xe381a8e38186e38280e3818de38299, -- とうむぎ
  0xe381a8e3818ae38184, -- とおい
  0xe381a8e3818ae3818b, -- とおか
  0xe381a8e3818ae3818f, -- とおく
  0xe381a8e3818ae38199, -- とおす
  0xe381a8e3818ae3828b, -- とおる
  0xe381a8e3818be38184, -- とかい
  0xe381a8e3818be38199, -- とかす
  0xe381a8e3818de3818ae3828a, -- ときおり
  0xe381a8e3818de381a8e38299e3818d, -- ときどき
  0xe381a8e3818fe38184, -- とくい
  0xe381a8e3818fe38197e38285e38186, -- とくしゅう
  0xe381a8e3818fe381a6e38293, -- とくてん
  0xe381a8e3818fe381ab, -- とくに
  0xe381a8e3818fe381b8e38299e381a4, -- とくべつ
  0xe381a8e38191e38184, -- とけい
  0xe381a8e38191e3828b, -- とける
  0xe381a8e38193e38284, -- とこや
  0xe381a8e38195e3818b, -- とさか
  0xe381a8e38197e38287e3818be38293, -- としょかん
  0xe381a8e3819de38186, -- とそう
  0xe381a8e3819fe38293, -- とたん
  0xe381a8e381a1e38285e38186, -- とちゅう
  0xe381a8e381a3e3818de38285e38186, -- とっきゅう
  0xe381a8e381a3e3818fe38293, -- とっくん
  0xe381a8e381a4e3819be38299e38293, -- とつぜん
  0xe381a8e381a4e381abe38285e38186, -- とつにゅう
  0xe381a8e381a8e38299e38191e3828b, -- とどける
  0xe381a8e381a8e381aee38188e3828b, -- ととのえる
  0xe381a8e381aae38184, -- とない
  0xe381a8e381aae38188e3828b, -- となえる
  0xe381a8e381aae3828a, -- となり
  0xe381a8e381aee38195e381be, -- とのさま
  0xe381a8e381afe38299e38199, -- とばす
  0xe381a8e38299e381b5e38299e3818be38299e3828f, -- どぶがわ
  0xe381a8e381bbe38186, -- とほう
  0xe381a8e381bee3828b, -- とまる
  0xe381a8e38281e3828b, -- とめる
  0xe381a8e38282e3819fe38299e381a1, -- ともだち
  0xe381a8e38282e3828b, -- ともる
  0xe381a8e38299e38288e38186e381b2e38299, -- どようび
  0xe381a8e38289e38188e3828b, -- とらえる
  0xe381a8e38293e3818be381a4, -- とんかつ
  0xe381a8e38299e38293e381b5e38299e3828a, -- どんぶり
  0xe381aae38184e3818be3818f, -- ないかく
  0xe381aae38184e38193e38186, -- ないこう
  0xe381aae38184e38197e38287, -- ないしょ
  0xe381aae38184e38199, -- ないす
  0xe381aae38184e3819be38293, -- ないせん
  0xe381aae38184e3819de38186, -- ないそう
  0xe381aae3818ae38199, -- なおす
  0xe381aae3818be38299e38184, -- ながい
  0xe381aae3818fe38199, -- なくす
  0xe381aae38191e38299e3828b, -- なげる
  0xe381aae38193e38186e381a8e38299, -- なこうど
  0xe381aae38195e38191, -- なさけ
  0xe381aae3819fe381a6e38299e38193e38193, -- なたでここ
  0xe381aae381a3e381a8e38186, -- なっとう
  0xe381aae381a4e38284e38199e381bf, -- なつやすみ
  0xe381aae381aae3818ae38197, -- ななおし
  0xe381aae381abe38193e38299e381a8, -- なにごと
  0xe381aae381abe38282e381ae, -- なにもの
  0xe381aae381abe3828f, -- なにわ
  0xe381aae381aee3818b, -- なのか
  0xe381aae381b5e3819fe38299, -- なふだ
  0xe381aae381bee38184e3818d, -- なまいき
  0xe381aae381bee38188, -- なまえ
  0xe381aae381bee381bf, -- なまみ
  0xe381aae381bfe3819fe38299, -- なみだ
  0xe381aae38281e38289e3818b, -- なめらか
  0xe381aae38281e3828b, -- なめる
  0xe381aae38284e38280, -- なやむ
  0xe381aae38289e38186, -- ならう
  0xe381aae38289e381b2e38299, -- ならび
  0xe381aae38289e381b5e38299, -- ならぶ
  0xe381aae3828ce3828b, -- なれる
  0xe381aae3828fe381a8e381b2e38299, -- なわとび
  0xe381aae3828fe381afe38299e3828a, -- なわばり
  0xe381abe38182e38186, -- にあう
  0xe381abe38184e3818be38299e3819f, -- にいがた
  0xe381abe38186e38191, -- にうけ
  0xe381abe3818ae38184, -- におい
  0xe381abe3818be38184, -- にかい
  0xe381abe3818be38299e381a6, -- にがて
  0xe381abe3818de381b2e38299, -- にきび
  0xe381abe3818fe38197e381bf, -- にくしみ
  0xe381abe3818fe381bee38293, -- にくまん
  0xe381abe38191e38299e3828b, -- にげる
  0xe381abe38195e38293e3818be3819fe38293e3819d, -- にさんかたんそ
  0xe381abe38197e3818d, -- にしき
  0xe381abe3819be38282e381ae, -- にせもの
  0xe381abe381a1e38197e38299e38287e38186, -- にちじょう
  0xe381abe381a1e38288e38186e381b2e38299, -- にちようび
  0xe381abe381a3e3818b, -- にっか
  0xe381abe381a3e3818d, -- にっき
  0xe381abe381a3e38191e38184, -- にっけい
  0xe381abe381a3e38193e38186, -- にっこう
  0xe381abe381a3e38195e38293, -- にっさん
  0xe381abe381a3e38197e38287e3818f, -- にっしょく
  0xe381abe381a3e38199e38186, -- にっすう
  0xe381abe381a3e3819be3818d, -- にっせき
  0xe381abe381a3e381a6e38184, -- にってい
  0xe381abe381aae38186, -- になう
  0xe381abe381bbe38293, -- にほん
  0xe381abe381bee38281, -- にまめ
  0xe381abe38282e381a4, -- にもつ
  0xe381abe38284e3828a, -- にやり
  0xe381abe38285e38186e38184e38293, -- にゅういん
  0xe381abe3828ae38293e38197e38283, -- にりんしゃ
  0xe381abe3828fe381a8e3828a, -- にわとり
  0xe381abe38293e38184, -- にんい
  0xe381abe38293e3818b, -- にんか
  0xe381abe38293e3818d, -- にんき
  0xe381abe38293e38191e38299e38293, -- にんげん
  0xe381abe38293e38197e3818d, -- にんしき
  0xe381abe38293e38199e38299e38186, -- にんずう
  0xe381abe38293e3819de38186, -- にんそう
  0xe381abe38293e3819fe38184, -- にんたい
  0xe381abe38293e381a1, -- にんち
  0xe381abe38293e381a6e38184, -- にんてい
  0xe381abe38293e381abe3818f, -- にんにく
  0xe381abe38293e381b5e3829a, -- にんぷ
  0xe381abe38293e381bee3828a, -- にんまり
  0xe381abe38293e38280, -- にんむ
  0xe381abe38293e38281e38184, -- にんめい
  0xe381abe38293e38288e38186, -- にんよう
  0xe381ace38184e3818fe3818de38299, -- ぬいくぎ
  0xe381ace3818be38199, -- ぬかす
  0xe381ace3818fe38299e38184e381a8e3828b, -- ぬぐいとる
  0xe381ace3818fe38299e38186, -- ぬぐう
  0xe381ace3818fe38282e3828a, -- ぬくもり
  0xe381ace38199e38280, -- ぬすむ
  0xe381ace381bee38188e381b2e38299, -- ぬまえび
  0xe381ace38281e3828a, -- ぬめり
  0xe381ace38289e38199, -- ぬらす
  0xe381ace38293e381a1e38283e3818f, -- ぬんちゃく
  0xe381ade38182e38191e38299, -- ねあげ
  0xe381ade38184e3818d, -- ねいき
  0xe381ade38184e3828b, -- ねいる
  0xe381ade38184e3828d, -- ねいろ
  0xe381ade3818fe38299e3819b, -- ねぐせ
  0xe381ade3818fe3819fe38184, -- ねくたい
  0xe381ade3818fe38289, -- ねくら
  0xe381ade38193e3819be38299, -- ねこぜ
  0xe381ade38193e38280, -- ねこむ
  0xe381ade38195e38191e38299, -- ねさげ
  0xe381ade38199e38193e38299e38199, -- ねすごす
  0xe381ade3819de381b8e38299e3828b, -- ねそべる
  0xe381ade3819fe38299e38293, -- ねだん
  0xe381ade381a4e38184, -- ねつい
  0xe381ade381a3e38197e38293, -- ねっしん
  0xe381ade381a4e3819de38299e38186, -- ねつぞう
  0xe381ade381a3e3819fe38184e3818de38299e38287, -- ねったいぎょ
  0xe381ade381b5e38299e3819de3818f, -- ねぶそく
  0xe381ade381b5e3819fe38299, -- ねふだ
  0xe381ade381bbe38299e38186, -- ねぼう
  0xe381ade381bbe3828ae381afe381bbe3828a, -- ねほりはほり
  0xe381ade381bee3818d, -- ねまき
  0xe381ade381bee3828fe38197, -- ねまわし
  0xe381ade381bfe381bf, -- ねみみ
  0xe381ade38280e38184, -- ねむい
  0xe381ade38280e3819fe38184, -- ねむたい
  0xe381ade38282e381a8, -- ねもと
  0xe381ade38289e38186, -- ねらう
  0xe381ade3828fe38195e38299, -- ねわざ
  0xe381ade38293e38184e3828a, -- ねんいり
  0xe381ade38293e3818ae38197, -- ねんおし
  0xe381ade38293e3818be38293, -- ねんかん
  0xe381ade38293e3818de38293, -- ねんきん
  0xe381ade38293e3818fe38299, -- ねんぐ
  0xe381ade38293e38195e38299, -- ねんざ
  0xe381ade38293e38197, -- ねんし
  0xe381ade38293e381a1e38283e3818f, -- ねんちゃく
  0xe381ade38293e381a8e38299, -- ねんど
  0xe381ade38293e381b2e3829a, -- ねんぴ
  0xe381ade38293e381b5e38299e381a4, -- ねんぶつ
  0xe381ade38293e381bee381a4, -- ねんまつ
  0xe381ade38293e3828ae38287e38186, -- ねんりょう
  0xe381ade38293e3828ce38184, -- ねんれい
  0xe381aee38184e38199e38299, -- のいず
  0xe381aee3818ae381a4e38299e381be, -- のおづま
  0xe381aee3818be38299e38199, -- のがす
  0xe381aee3818de381aae381bf, -- のきなみ
  0xe381aee38193e3818de38299e3828a, -- のこぎり
  0xe381aee38193e38199, -- のこす
  0xe381aee38193e3828b, -- のこる
  0xe381aee3819be3828b, -- のせる
  0xe381aee3819de38299e3818f, -- のぞく
  0xe381aee3819de38299e38280, -- のぞむ
  0xe381aee3819fe381bee38186, -- のたまう
  0xe381aee381a1e381bbe381a8e38299, -- のちほど
  0xe381aee381a3e3818f, -- のっく
  0xe381aee381afe38299e38199, -- のばす
  0xe381aee381afe38289, -- のはら
  0xe381aee381b8e38299e3828b, -- のべる
  0xe381aee381bbe38299e3828b, -- のぼる
  0xe381aee381bfe38282e381ae, -- のみもの
  0xe381aee38284e381be, -- のやま
  0xe381aee38289e38184e381ac, -- のらいぬ
  0xe381aee38289e381ade38193, -- のらねこ
  0xe381aee3828ae38282e381ae, -- のりもの
  0xe381aee3828ae38286e3818d, -- のりゆき
  0xe381aee3828ce38293, -- のれん
  0xe381aee38293e3818d, -- のんき
  0xe381afe38299e38182e38184, -- ばあい
  0xe381afe38182e3818f, -- はあく
  0xe381afe38299e38182e38195e38293, -- ばあさん
  0xe381afe38299e38184e3818b, -- ばいか
  0xe381afe38299e38184e3818f, -- ばいく
  0xe381afe38184e38191e38293, -- はいけん
  0xe381afe38184e38193e38299, -- はいご
  0xe381afe38184e38197e38293, -- はいしん
  0xe381afe38184e38199e38184, -- はいすい
  0xe381afe38184e3819be38293, -- はいせん
  0xe381afe38184e3819de38186, -- はいそう
  0xe381afe38184e381a1, -- はいち
  0xe381afe38299e38184e381afe38299e38184, -- ばいばい
  0xe381afe38184e3828ce381a4, -- はいれつ
  0xe381afe38188e3828b, -- はえる
  0xe381afe3818ae3828b, -- はおる
  0xe381afe3818be38184, -- はかい
  0xe381afe38299e3818be3828a, -- ばかり
  0xe381afe3818be3828b, -- はかる
  0xe381afe3818fe38197e38285, -- はくしゅ
  0xe381afe38191e38293, -- はけん
  0xe381afe38193e381b5e38299, -- はこぶ
  0xe381afe38195e381bf, -- はさみ
  0xe381afe38195e38293, -- はさん
  0xe381afe38197e38193e38299, -- はしご
  0xe381afe38299e38197e38287, -- ばしょ
  0xe381afe38197e3828b, -- はしる
  0xe381afe3819be3828b, -- はせる
  0xe381afe3829ae3819de38193e38293, -- ぱそこん
  0xe381afe3819de38293, -- はそん
  0xe381afe3819fe38293, -- はたん
  0xe381afe381a1e381bfe381a4, -- はちみつ
  0xe381afe381a4e3818ae38293, -- はつおん
  0xe381afe381a3e3818be3818f, -- はっかく
  0xe381afe381a4e38299e3818d, -- はづき
  0xe381afe381a3e3818de3828a, -- はっきり
  0xe381afe381a3e3818fe381a4, -- はっくつ
  0xe381afe381a3e38191e38293, -- はっけん
  0xe381afe381a3e38193e38186, -- はっこう
  0xe381afe381a3e38195e38293, -- はっさん
  0xe381afe381a3e38197e38293, -- はっしん
  0xe381afe381a3e3819fe381a4, -- はったつ
  0xe381afe381a3e381a1e38285e38186, -- はっちゅう
  0xe381afe381a3e381a6e38293, -- はってん
  0xe381afe381a3e381b2e3829ae38287e38186, -- はっぴょう
  0xe381afe381a3e381bbe3829ae38186, -- はっぽう
  0xe381afe381aae38199, -- はなす
  0xe381afe381aae381b2e38299, -- はなび
  0xe381afe381abe3818be38280, -- はにかむ
  0xe381afe381b5e38299e38289e38197, -- はぶらし
  0xe381afe381bfe3818be38299e3818d, -- はみがき
  0xe381afe38280e3818be38186, -- はむかう
  0xe381afe38281e381a4, -- はめつ
  0xe381afe38284e38184, -- はやい
  0xe381afe38284e38197, -- はやし
  0xe381afe38289e38186, -- はらう
  0xe381afe3828de38186e38183e38293, -- はろうぃん
  0xe381afe3828fe38184, -- はわい
  0xe381afe38293e38184, -- はんい
  0xe381afe38293e38188e38184, -- はんえい
  0xe381afe38293e3818ae38293, -- はんおん
  0xe381afe38293e3818be3818f, -- はんかく
  0xe381afe38293e3818de38287e38186, -- はんきょう
  0xe381afe38299e38293e3818fe38299e381bf, -- ばんぐみ
  0xe381afe38293e38193, -- はんこ
  0xe381afe38293e38197e38283, -- はんしゃ
  0xe381afe38293e38199e38186, -- はんすう
  0xe381afe38293e3819fe38299e38293, -- はんだん
  0xe381afe3829ae38293e381a1, -- ぱんち
  0xe381afe3829ae38293e381a4, -- ぱんつ
  0xe381afe38293e381a6e38184, -- はんてい
  0xe381afe38293e381a8e38197, -- はんとし
  0xe381afe38293e381aee38186, -- はんのう
  0xe381afe38293e381afe3829a, -- はんぱ
  0xe381afe38293e381b5e38299e38293, -- はんぶん
  0xe381afe38293e381b8e3829ae38293, -- はんぺん
  0xe381afe38293e381bbe38299e38186e3818d, -- はんぼうき
  0xe381afe38293e38281e38184, -- はんめい
  0xe381afe38293e38289e38293, -- はんらん
  0xe381afe38293e3828de38293, -- はんろん
  0xe381b2e38184e3818d, -- ひいき
  0xe381b2e38186e38293, -- ひうん
  0xe381b2e38188e3828b, -- ひえる
  0xe381b2e3818be3818f, -- ひかく
  0xe381b2e3818be3828a, -- ひかり
  0xe381b2e3818be3828b, -- ひかる
  0xe381b2e3818be38293, -- ひかん
  0xe381b2e3818fe38184, -- ひくい
  0xe381b2e38191e381a4, -- ひけつ
  0xe381b2e38193e38186e3818d, -- ひこうき
  0xe381b2e38193e3818f, -- ひこく
  0xe381b2e38195e38184, -- ひさい
  0xe381b2e38195e38197e381b5e38299e3828a, -- ひさしぶり
  0xe381b2e38195e38293, -- ひさん
  0xe381b2e38299e38197e38299e38285e381a4e3818be38293, -- びじゅつかん
  0xe381b2e38197e38287, -- ひしょ
  0xe381b2e3819de3818b, -- ひそか
  0xe381b2e3819de38280, -- ひそむ
  0xe381b2e3819fe38280e3818d, -- ひたむき
  0xe381b2e3819fe38299e3828a, -- ひだり
  0xe381b2e3819fe3828b, -- ひたる
  0xe381b2e381a4e3818de38299, -- ひつぎ
  0xe381b2e381a3e38193e38197, -- ひっこし
  0xe381b2e381a3e38197, -- ひっし
  0xe381b2e381a4e38197e38299e38285e381b2e38293, -- ひつじゅひん
  0xe381b2e381a3e38199, -- ひっす
  0xe381b2e381a4e3819be38299e38293, -- ひつぜん
  0xe381b2e3829ae381a3e3819fe3828a, -- ぴったり
  0xe381b2e3829ae381a3e381a1e3828a, -- ぴっちり
  0xe381b2e381a4e38288e38186, -- ひつよう
  0xe381b2e381a6e38184, -- ひてい
  0xe381b2e381a8e38193e38299e381bf, -- ひとごみ
  0xe381b2e381aae381bee381a4e3828a, -- ひなまつり
  0xe381b2e381aae38293, -- ひなん
  0xe381b2e381ade3828b, -- ひねる
  0xe381b2e381afe38293, -- ひはん
  0xe381b2e381b2e38299e3818f, -- ひびく
  0xe381b2e381b2e38287e38186, -- ひひょう
  0xe381b2e381bbe38186, -- ひほう
  0xe381b2e381bee3828fe3828a, -- ひまわり
  0xe381b2e381bee38293, -- ひまん
  0xe381b2e381bfe381a4, -- ひみつ
  0xe381b2e38281e38184, -- ひめい
  0xe381b2e38281e38197e38299e38197, -- ひめじし
  0xe381b2e38284e38191, -- ひやけ
  0xe381b2e38284e38199, -- ひやす
  0xe381b2e38288e38186, -- ひよう
  0xe381b2e38299e38287e38186e3818d, -- びょうき
  0xe381b2e38289e3818be38299e381aa, -- ひらがな
  0xe381b2e38289e3818f, -- ひらく
  0xe381b2e3828ae381a4, -- ひりつ
  0xe381b2e3828ae38287e38186, -- ひりょう
  0xe381b2e3828be381be, -- ひるま
  0xe381b2e3828be38284e38199e381bf, -- ひるやすみ
  0xe381b2e3828ce38184, -- ひれい
  0xe381b2e3828de38184, -- ひろい
  0xe381b2e3828de38186, -- ひろう
  0xe381b2e3828de3818d, -- ひろき
  0xe381b2e3828de38286e3818d, -- ひろゆき
  0xe381b2e38293e3818be3818f, -- ひんかく
  0xe381b2e38293e38191e381a4, -- ひんけつ
  0xe381b2e38293e38193e38293, -- ひんこん
  0xe381b2e38293e38197e38285, -- ひんしゅ
  0xe381b2e38293e3819de38186, -- ひんそう
  0xe381b2e3829ae38293e381a1, -- ぴんち
  0xe381b2e38293e381afe3829ae38293, -- ひんぱん
  0xe381b2e38299e38293e381bbe38299e38186, -- びんぼう
  0xe381b5e38182e38293, -- ふあん
  0xe381b5e38184e38186e381a1, -- ふいうち
  0xe381b5e38186e38191e38184, -- ふうけい
  0xe381b5e38186e3819be38293, -- ふうせん
  0xe381b5e3829ae38186e3819fe3828de38186, -- ぷうたろう
  0xe381b5e38186e381a8e38186, -- ふうとう
  0xe381b5e38186e381b5, -- ふうふ
  0xe381b5e38188e3828b, -- ふえる
  0xe381b5e3818ae38293, -- ふおん
  0xe381b5e3818be38184, -- ふかい
  0xe381b5e3818de38293, -- ふきん
  0xe381b5e3818fe38195e38299e381a4, -- ふくざつ
  0xe381b5e3818fe381b5e38299e3818fe3828d, -- ふくぶくろ
  0xe381b5e38193e38186, -- ふこう
  0xe381b5e38195e38184, -- ふさい
  0xe381b5e38197e3818de38299, -- ふしぎ
  0xe381b5e38197e38299e381bf, -- ふじみ
  0xe381b5e38199e381be, -- ふすま
  0xe381b5e3819be38184, -- ふせい
  0xe381b5e3819be3818fe38299, -- ふせぐ
  0xe381b5e3819de3818f, -- ふそく
  0xe381b5e38299e3819fe381abe3818f, -- ぶたにく
  0xe381b5e3819fe38293, -- ふたん
  0xe381b5e381a1e38287e38186, -- ふちょう
  0xe381b5e381a4e38186, -- ふつう
  0xe381b5e381a4e3818b, -- ふつか
  0xe381b5e381a3e3818be381a4, -- ふっかつ
  0xe381b5e381a3e3818d, -- ふっき
  0xe381b5e381a3e38193e3818f, -- ふっこく
  0xe381b5e38299e381a8e38299e38186, -- ぶどう
  0xe381b5e381a8e3828b, -- ふとる
  0xe381b5e381a8e38293, -- ふとん
  0xe381b5e381aee38186, -- ふのう
  0xe381b5e381afe38184, -- ふはい
  0xe381b5e381b2e38287e38186, -- ふひょう
  0xe381b5e381b8e38293, -- ふへん
  0xe381b5e381bee38293, -- ふまん
  0xe381b5e381bfe38293, -- ふみん
  0xe381b5e38281e381a4, -- ふめつ
  0xe381b5e38281e38293, -- ふめん
  0xe381b5e38288e38186, -- ふよう
  0xe381b5e3828ae38193, -- ふりこ
  0xe381b5e3828ae3828b, -- ふりる
  0xe381b5e3828be38184, -- ふるい
  0xe381b5e38293e38184e3818d, -- ふんいき
  0xe381b5e38299e38293e3818be38299e3818f, -- ぶんがく
  0xe381b5e38299e38293e3818fe38299, -- ぶんぐ
  0xe381b5e38293e38197e381a4, -- ふんしつ
  0xe381b5e38299e38293e3819be3818d, -- ぶんせき
  0xe381b5e38293e3819de38186, -- ふんそう
  0xe381b5e38299e38293e381bbe3829ae38186, -- ぶんぽう
  0xe381b8e38184e38182e38293, -- へいあん
  0xe381b8e38184e3818ae38293, -- へいおん
  0xe381b8e38184e3818be38299e38184, -- へいがい
  0xe381b8e38184e3818d, -- へいき
  0xe381b8e38184e38191e38299e38293, -- へいげん
  0xe381b8e38184e38193e38186, -- へいこう
  0xe381b8e38184e38195, -- へいさ
  0xe381b8e38184e38197e38283, -- へいしゃ
  0xe381b8e38184e3819be381a4, -- へいせつ
  0xe381b8e38184e3819d, -- へいそ
  0xe381b8e38184e3819fe3818f, -- へいたく
  0xe381b8e38184e381a6e38293, -- へいてん
  0xe381b8e38184e381ade381a4, -- へいねつ
  0xe381b8e38184e3828f, -- へいわ
  0xe381b8e3818de3818be38299, -- へきが
  0xe381b8e38193e38280, -- へこむ
  0xe381b8e38299e381abe38184e3828d, -- べにいろ
  0xe381b8e38299e381abe38197e38287e38186e3818be38299, -- べにしょうが
  0xe381b8e38289e38199, -- へらす
  0xe381b8e38293e3818be38293, -- へんかん
  0xe381b8e38299e38293e3818de38287e38186, -- べんきょう
  0xe381b8e38299e38293e38193e38299e38197, -- べんごし
  0xe381b8e38293e38195e38184, -- へんさい
  0xe381b8e38293e3819fe38184, -- へんたい
  0xe381b8e38299e38293e3828a, -- べんり
  0xe381bbe38182e38293, -- ほあん
  0xe381bbe38184e3818f, -- ほいく
  0xe381bbe38299e38186e3818de38299e38287, -- ぼうぎょ
  0xe381bbe38186e38193e3818f, -- ほうこく
  0xe381bbe38186e3819de38186, -- ほうそう
  0xe381bbe38186e381bbe38186, -- ほうほう
  0xe381bbe38186e38282e38293, -- ほうもん
  0xe381bbe38186e3828ae381a4, -- ほうりつ
  0xe381bbe38188e3828b, -- ほえる
  0xe381bbe3818ae38293, -- ほおん
  0xe381bbe3818be38293, -- ほかん
  0xe381bbe3818de38287e38186, -- ほきょう
  0xe381bbe38299e3818de38293, -- ぼきん
  0xe381bbe3818fe3828d, -- ほくろ
  0xe381bbe38191e381a4, -- ほけつ
  0xe381bbe38191e38293, -- ほけん
  0xe381bbe38193e38186, -- ほこう
  0xe381bbe38193e3828b, -- ほこる
  0xe381bbe38197e38184, -- ほしい
  0xe381bbe38197e381a4, -- ほしつ
  0xe381bbe38197e38285, -- ほしゅ
  0xe381bbe38197e38287e38186, -- ほしょう
  0xe381bbe3819be38184, -- ほせい
  0xe381bbe3819de38184, -- ほそい
  0xe381bbe3819de3818f, -- ほそく
  0xe381bbe3819fe381a6, -- ほたて
  0xe381bbe3819fe3828b, -- ほたる
  0xe381bbe3829ae381a1e381b5e38299e3818fe3828d, -- ぽちぶくろ
  0xe381bbe381a3e3818de38287e3818f, -- ほっきょく
  0xe381bbe381a3e38195, -- ほっさ
  0xe381bbe381a3e3819fe38293, -- ほったん
  0xe381bbe381a8e38293e381a8e38299, -- ほとんど
  0xe381bbe38281e3828b, -- ほめる
  0xe381bbe38293e38184, -- ほんい
  0xe381bbe38293e3818d, -- ほんき
  0xe381bbe38293e38191, -- ほんけ
  0xe381bbe38293e38197e381a4, -- ほんしつ
  0xe381bbe38293e38284e3818f, -- ほんやく
  0xe381bee38184e381abe381a1, -- まいにち
  0xe381bee3818be38184, -- まかい
  0xe381bee3818be3819be3828b, -- まかせる
  0xe381bee3818be38299e3828b, -- まがる
  0xe381bee38191e3828b, -- まける
  0xe381bee38193e381a8, -- まこと
  0xe381bee38195e381a4, -- まさつ
  0xe381bee38197e38299e38281, -- まじめ
  0xe381bee38199e3818f, -- ますく
  0xe381bee3819be38299e3828b, -- まぜる
  0xe381bee381a4e3828a, -- まつり
  0xe381bee381a8e38281, -- まとめ
  0xe381bee381aae381b5e38299, -- まなぶ
  0xe381bee381ace38191, -- まぬけ
  0xe381bee381ade3818f, -- まねく
  0xe381bee381bbe38186, -- まほう
  0xe381bee38282e3828b, -- まもる
  0xe381bee38286e38191e38299, -- まゆげ
  0xe381bee38288e38186, -- まよう
  0xe381bee3828de38284e3818b, -- まろやか
  0xe381bee3828fe38199, -- まわす
  0xe381bee3828fe3828a, -- まわり
  0xe381bee3828fe3828b, -- まわる
  0xe381bee38293e3818be38299, -- まんが
  0xe381bee38293e3818de381a4, -- まんきつ
  0xe381bee38293e3819de38299e3818f, -- まんぞく
  0xe381bee38293e381aae3818b, -- まんなか
  0xe381bfe38184e38289, -- みいら
  0xe381bfe38186e381a1, -- みうち
  0xe381bfe38188e3828b, -- みえる
  0xe381bfe3818be38299e3818f, -- みがく
  0xe381bfe3818be3819f, -- みかた
  0xe381bfe3818be38293, -- みかん
  0xe381bfe38191e38293, -- みけん
  0xe381bfe38193e38293, -- みこん
  0xe381bfe38197e38299e3818be38184, -- みじかい
  0xe381bfe38199e38184, -- みすい
  0xe381bfe38199e38188e3828b, -- みすえる
  0xe381bfe3819be3828b, -- みせる
  0xe381bfe381a3e3818b, -- みっか
  0xe381bfe381a4e3818be3828b, -- みつかる
  0xe381bfe381a4e38191e3828b, -- みつける
  0xe381bfe381a6e38184, -- みてい
  0xe381bfe381a8e38281e3828b, -- みとめる
  0xe381bfe381aae381a8, -- みなと
  0xe381bfe381aae381bfe3818be38195e38184, -- みなみかさい
  0xe381bfe381ade38289e3828b, -- みねらる
  0xe381bfe381aee38186, -- みのう
  0xe381bfe381aee3818be38299e38199, -- みのがす
  0xe381bfe381bbe38293, -- みほん
  0xe381bfe38282e381a8, -- みもと
  0xe381bfe38284e38191e38299, -- みやげ
  0xe381bfe38289e38184, -- みらい
  0xe381bfe3828ae38287e3818f, -- みりょく
  0xe381bfe3828fe3818f, -- みわく
  0xe381bfe38293e3818b, -- みんか
  0xe381bfe38293e3819de38299e3818f, -- みんぞく
  0xe38280e38184e3818b, -- むいか
  0xe38280e38188e3818d, -- むえき
  0xe38280e38188e38293, -- むえん
  0xe38280e3818be38184, -- むかい
  0xe38280e3818be38186, -- むかう
  0xe38280e3818be38188, -- むかえ
  0xe38280e3818be38197, -- むかし
  0xe38280e3818de38299e381a1e38283, -- むぎちゃ
  0xe38280e38191e3828b, -- むける
  0xe38280e38191e38299e38293, -- むげん
  0xe38280e38195e381bbe38299e3828b, -- むさぼる
  0xe38280e38197e38182e381a4e38184, -- むしあつい
  0xe38280e38197e381afe38299, -- むしば
  0xe38280e38197e38299e38285e38293, -- むじゅん
  0xe38280e38197e3828d, -- むしろ
  0xe38280e38199e38186, -- むすう
  0xe38280e38199e38193, -- むすこ
  0xe38280e38199e381b5e38299, -- むすぶ
  0xe38280e38199e38281, -- むすめ
  0xe38280e3819be3828b, -- むせる
  0xe38280e3819be38293, -- むせん
  0xe38280e381a1e38285e38186, -- むちゅう
  0xe38280e381aae38197e38184, -- むなしい
  0xe38280e381aee38186, -- むのう
  0xe38280e38284e381bf, -- むやみ
  0xe38280e38288e38186, -- むよう
  0xe38280e38289e38195e3818d, -- むらさき
  0xe38280e3828ae38287e38186, -- むりょう
  0xe38280e3828de38293, -- むろん
  0xe38281e38184e38182e38293, -- めいあん
  0xe38281e38184e38186e38293, -- めいうん
  0xe38281e38184e38188e38293, -- めいえん
  0xe38281e38184e3818be3818f, -- めいかく
  0xe38281e38184e3818de38287e3818f, -- めいきょく
  0xe38281e38184e38195e38184, -- めいさい
  0xe38281e38184e38197, -- めいし
  0xe38281e38184e3819de38186, -- めいそう
  0xe38281e38184e381b5e38299e381a4, -- めいぶつ
  0xe38281e38184e3828ce38184, -- めいれい
  0xe38281e38184e3828fe3818f, -- めいわく
  0xe38281e3818fe38299e381bee3828ce3828b, -- めぐまれる
  0xe38281e38195e38299e38199, -- めざす
  0xe38281e38197e3819f, -- めした
  0xe38281e38199e38299e38289e38197e38184, -- めずらしい
  0xe38281e3819fe38299e381a4, -- めだつ
  0xe38281e381bee38184, -- めまい
  0xe38281e38284e38199, -- めやす
  0xe38281e38293e3818de38287, -- めんきょ
  0xe38281e38293e3819be3818d, -- めんせき
  0xe38281e38293e381a8e38299e38186, -- めんどう
  0xe38282e38186e38197e38182e38191e38299e3828b, -- もうしあげる
  0xe38282e38186e381a8e38299e38186e38191e38293, -- もうどうけん
  0xe38282e38188e3828b, -- もえる
  0xe38282e3818fe38197, -- もくし
  0xe38282e3818fe381a6e3818d, -- もくてき
  0xe38282e3818fe38288e38186e381b2e38299, -- もくようび
  0xe38282e381a1e3828de38293, -- もちろん
  0xe38282e381a8e38299e3828b, -- もどる
  0xe38282e38289e38186, -- もらう
  0xe38282e38293e3818f, -- もんく
  0xe38282e38293e3819fe38299e38184, -- もんだい
  0xe38284e3818ae38284, -- やおや
  0xe38284e38191e3828b, -- やける
  0xe38284e38195e38184, -- やさい
  0xe38284e38195e38197e38184, -- やさしい
  0xe38284e38199e38184, -- やすい
  0xe38284e38199e3819fe3828de38186, -- やすたろう
  0xe38284e38199e381bf, -- やすみ
  0xe38284e3819be3828b, -- やせる
  0xe38284e3819de38186, -- やそう
  0xe38284e3819fe38184, -- やたい
  0xe38284e381a1e38293, -- やちん
  0xe38284e381a3e381a8, -- やっと
  0xe38284e381a3e381afe3829ae3828a, -- やっぱり
  0xe38284e381b5e38299e3828b, -- やぶる
  0xe38284e38281e3828b, -- やめる
  0xe38284e38284e38193e38197e38184, -- ややこしい
  0xe38284e38288e38184, -- やよい
  0xe38284e3828fe38289e3818be38184, -- やわらかい
  0xe38286e38186e3818d, -- ゆうき
  0xe38286e38186e381b2e38299e38293e3818de38287e3818f, -- ゆうびんきょく
  0xe38286e38186e381b8e38299, -- ゆうべ
  0xe38286e38186e38281e38184, -- ゆうめい
  0xe38286e38191e381a4, -- ゆけつ
  0xe38286e38197e38285e381a4, -- ゆしゅつ
  0xe38286e3819be38293, -- ゆせん
  0xe38286e3819de38186, -- ゆそう
  0xe38286e3819fe3818b, -- ゆたか
  0xe38286e381a1e38283e3818f, -- ゆちゃく
  0xe38286e381a6e38299e3828b, -- ゆでる
  0xe38286e381abe38285e38186, -- ゆにゅう
  0xe38286e381b2e38299e3828f, -- ゆびわ
  0xe38286e38289e38184, -- ゆらい
  0xe38286e3828ce3828b, -- ゆれる
  0xe38288e38186e38184, -- ようい
  0xe38288e38186e3818b, -- ようか
  0xe38288e38186e3818de38285e38186, -- ようきゅう
  0xe38288e38186e38197e38299, -- ようじ
  0xe38288e38186e38199, -- ようす
  0xe38288e38186e381a1e38188e38293, -- ようちえん
  0xe38288e3818be3819be38299, -- よかぜ
  0xe38288e3818be38293, -- よかん
  0xe38288e3818de38293, -- よきん
  0xe38288e3818fe3819be38184, -- よくせい
  0xe38288e3818fe381bbe38299e38186, -- よくぼう
  0xe38288e38191e38184, -- よけい
  0xe38288e38193e38299e3828ce3828b, -- よごれる
  0xe38288e38195e38293, -- よさん
  0xe38288e38197e38285e38186, -- よしゅう
  0xe38288e3819de38186, -- よそう
  0xe38288e3819de3818f, -- よそく
  0xe38288e381a3e3818b, -- よっか
  0xe38288e381a6e38184, -- よてい
  0xe38288e381a8e38299e3818be38299e3828fe3818f, -- よどがわく
  0xe38288e381ade381a4, -- よねつ
  0xe38288e38284e3818f, -- よやく
  0xe38288e38286e38186, -- よゆう
  0xe38288e3828de38193e381b5e38299, -- よろこぶ
  0xe38288e3828de38197e38184, -- よろしい
  0xe38289e38184e38186, -- らいう
  0xe38289e3818fe3818be38299e3818d, -- らくがき
  0xe38289e3818fe38193e38299, -- らくご
  0xe38289e3818fe38195e381a4, -- らくさつ
  0xe38289e3818fe3819fe38299, -- らくだ
  0xe38289e38197e38293e381afe38299e38293, -- らしんばん
  0xe38289e3819be38293, -- らせん
  0xe38289e3819de38299e3818f, -- らぞく
  0xe38289e3819fe38184, -- らたい
  0xe38289e381a3e3818b, -- らっか
  0xe38289e3828ce381a4, -- られつ
  0xe3828ae38188e3818d, -- りえき
  0xe3828ae3818be38184, -- りかい
  0xe3828ae3818de38195e3818f, -- りきさく
  0xe3828ae3818de3819be381a4, -- りきせつ
  0xe3828ae3818fe3818fe38299e38293, -- りくぐん
  0xe3828ae3818fe381a4, -- りくつ
  0xe3828ae38191e38293, -- りけん
  0xe3828ae38193e38186, -- りこう
  0xe3828ae3819be38184, -- りせい
  0xe3828ae3819de38186, -- りそう
  0xe3828ae3819de3818f, -- りそく
  0xe3828ae381a6e38293, -- りてん
  0xe3828ae381ade38293, -- りねん
  0xe3828ae38286e38186, -- りゆう
  0xe3828ae38285e38186e3818be38299e3818f, -- りゅうがく
  0xe3828ae38288e38186, -- りよう
  0xe3828ae38287e38186e3828a, -- りょうり
  0xe3828ae38287e3818be38293, -- りょかん
  0xe3828ae38287e3818fe381a1e38283, -- りょくちゃ
  0xe3828ae38287e38193e38186, -- りょこう
  0xe3828ae3828ae3818f, -- りりく
  0xe3828ae3828ce3818d, -- りれき
  0xe3828ae3828de38293, -- りろん
  0xe3828ae38293e38193e38299, -- りんご
  0xe3828be38184e38191e38184, -- るいけい
  0xe3828be38184e38195e38184, -- るいさい
  0xe3828be38184e38197e38299, -- るいじ
  0xe3828be38184e3819be3818d, -- るいせき
  0xe3828be38199e381afe38299e38293, -- るすばん
  0xe3828be3828ae3818be38299e3828fe38289, -- るりがわら
  0xe3828ce38184e3818be38293, -- れいかん
  0xe3828ce38184e3818de38299, -- れいぎ
  0xe3828ce38184e3819be38184, -- れいせい
  0xe3828ce38184e3819de38299e38186e38193, -- れいぞうこ
  0xe3828ce38184e381a8e38186, -- れいとう
  0xe3828ce38184e381bbe38299e38186, -- れいぼう
  0xe3828ce3818de38197, -- れきし
  0xe3828ce3818de3819fe38299e38184, -- れきだい
  0xe3828ce38293e38182e38184, -- れんあい
  0xe3828ce38293e38191e38184, -- れんけい
  0xe3828ce38293e38193e38293, -- れんこん
  0xe3828ce38293e38195e38184, -- れんさい
  0xe3828ce38293e38197e38285e38186, -- れんしゅう
  0xe3828ce38293e3819de38299e3818f, -- れんぞく
  0xe3828ce38293e38289e3818f, -- れんらく
  0xe3828de38186e3818b, -- ろうか
  0xe3828de38186e38193e38299, -- ろうご
  0xe3828de38186e38197e38299e38293, -- ろうじん
  0xe3828de38186e3819de3818f, -- ろうそく
  0xe3828de3818fe3818be38299, -- ろくが
  0xe3828de38193e381a4, -- ろこつ
  0xe3828de38197e38299e38186e38289, -- ろじうら
  0xe3828de38197e38285e381a4, -- ろしゅつ
  0xe3828de3819be38293, -- ろせん
  0xe3828de381a6e38293, -- ろてん
  0xe3828de38281e38293, -- ろめん
  0xe3828de3828ce381a4, -- ろれつ
  0xe3828de38293e3818de38299, -- ろんぎ
  0xe3828de38293e381afe3829a, -- ろんぱ
  0xe3828de38293e381b5e38299e38293, -- ろんぶん
  0xe3828de38293e3828a, -- ろんり
  0xe3828fe3818be38199, -- わかす
  0xe3828fe3818be38281, -- わかめ
  0xe3828fe3818be38284e381be, -- わかやま
  0xe3828fe3818be3828ce3828b, -- わかれる
  0xe3828fe38197e381a4, -- わしつ
  0xe3828fe38197e38299e381bee38197, -- わじまし
  0xe3828fe38199e3828ce38282e381ae, -- わすれもの
  0xe3828fe38289e38186, -- わらう
  0xe3828fe3828ce3828b] -- われる

/-- wordlists.go:4107-6156 `JapaneseWordlist`. -/
def JapaneseWordlist : List GoString := unpackWords JapaneseWordlistPacked

end Btc
