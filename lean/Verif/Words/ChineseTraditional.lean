import Verif.Words.Basic

/-! Generated from /repo/wordlists.go, lines 14362-16411: each word is its UTF-8 bytes read as one
big-endian number (`0x61626c65` is "able"); the word is in the comment. -/

namespace Btc

set_option maxRecDepth 20000 in
/-- wordlists.go:14362-16411 `ChineseTraditionalWordlist`, in order, packed. -/
def ChineseTraditionalWordlistPacked : List Nat := [
  0xe79a84, -- 的
  0xe4b880, -- 一
  0xe698af, -- 是
  0xe59ca8, -- 在
  0xe4b88d, -- 不
  0xe4ba86, -- 了
  0xe69c89, -- 有
  0xe5928c, -- 和
  0xe4baba, -- 人
  0xe98099, -- 這
  0xe4b8ad, -- 中
  0xe5a4a7, -- 大
  0xe782ba, -- 為
  0xe4b88a, -- 上
  0xe5808b, -- 個
  0xe59c8b, -- 國
  0xe68891, -- 我
  0xe4bba5, -- 以
  0xe8a681, -- 要
  0xe4bb96, -- 他
  0xe69982, -- 時
  0xe4be86, -- 來
  0xe794a8, -- 用
  0xe58091, -- 們
  0xe7949f, -- 生
  0xe588b0, -- 到
  0xe4bd9c, -- 作
  0xe59cb0, -- 地
  0xe696bc, -- 於
  0xe587ba, -- 出
  0xe5b0b1, -- 就
  0xe58886, -- 分
  0xe5b08d, -- 對
  0xe68890, -- 成
  0xe69c83, -- 會
  0xe58faf, -- 可
  0xe4b8bb, -- 主
  0xe799bc, -- 發
  0xe5b9b4, -- 年
  0xe58b95, -- 動
  0xe5908c, -- 同
  0xe5b7a5, -- 工
  0xe4b99f, -- 也
  0xe883bd, -- 能
  0xe4b88b, -- 下
  0xe9818e, -- 過
  0xe5ad90, -- 子
  0xe8aaaa, -- 說
  0xe794a2, -- 產
  0xe7a8ae, -- 種
  0xe99da2, -- 面
  0xe8808c, -- 而
  0xe696b9, -- 方
  0xe5be8c, -- 後
  0xe5a49a, -- 多
  0xe5ae9a, -- 定
  0xe8a18c, -- 行
  0xe5adb8, -- 學
  0xe6b395, -- 法
  0xe68980, -- 所
  0xe6b091, -- 民
  0xe5be97, -- 得
  0xe7b693, -- 經
  0xe58d81, -- 十
  0xe4b889, -- 三
  0xe4b98b, -- 之
  0xe980b2, -- 進
  0xe89197, -- 著
  0xe7ad89, -- 等
  0xe983a8, -- 部
  0xe5baa6, -- 度
  0xe5aeb6, -- 家
  0xe99bbb, -- 電
  0xe58a9b, -- 力
  0xe8a3a1, -- 裡
  0xe5a682, -- 如
  0xe6b0b4, -- 水
  0xe58c96, -- 化
  0xe9ab98, -- 高
  0xe887aa, -- 自
  0xe4ba8c, -- 二
  0xe79086, -- 理
  0xe8b5b7, -- 起
  0xe5b08f, -- 小
  0xe789a9, -- 物
  0xe78fbe, -- 現
  0xe5afa6, -- 實
  0xe58aa0, -- 加
  0xe9878f, -- 量
  0xe983bd, -- 都
  0xe585a9, -- 兩
  0xe9ab94, -- 體
  0xe588b6, -- 制
  0xe6a99f, -- 機
  0xe795b6, -- 當
  0xe4bdbf, -- 使
  0xe9bb9e, -- 點
  0xe5be9e, -- 從
  0xe6a5ad, -- 業
  0xe69cac, -- 本
  0xe58ebb, -- 去
  0xe68a8a, -- 把
  0xe680a7, -- 性
  0xe5a5bd, -- 好
  0xe68789, -- 應
  0xe9968b, -- 開
  0xe5ae83, -- 它
  0xe59088, -- 合
  0xe98284, -- 還
  0xe59ba0, -- 因
  0xe794b1, -- 由
  0xe585b6, -- 其
  0xe4ba9b, -- 些
  0xe784b6, -- 然
  0xe5898d, -- 前
  0xe5a496, -- 外
  0xe5a4a9, -- 天
  0xe694bf, -- 政
  0xe59b9b, -- 四
  0xe697a5, -- 日
  0xe982a3, -- 那
  0xe7a4be, -- 社
  0xe7bea9, -- 義
  0xe4ba8b, -- 事
  0xe5b9b3, -- 平
  0xe5bda2, -- 形
  0xe79bb8, -- 相
  0xe585a8, -- 全
  0xe8a1a8, -- 表
  0xe99693, -- 間
  0xe6a8a3, -- 樣
  0xe88887, -- 與
  0xe9979c, -- 關
  0xe59084, -- 各
  0xe9878d, -- 重
  0xe696b0, -- 新
  0xe7b79a, -- 線
  0xe585a7, -- 內
  0xe695b8, -- 數
  0xe6ada3, -- 正
  0xe5bf83, -- 心
  0xe58f8d, -- 反
  0xe4bda0, -- 你
  0xe6988e, -- 明
  0xe79c8b, -- 看
  0xe58e9f, -- 原
  0xe58f88, -- 又
  0xe9babc, -- 麼
  0xe588a9, -- 利
  0xe6af94, -- 比
  0xe68896, -- 或
  0xe4bd86, -- 但
  0xe8b3aa, -- 質
  0xe6b0a3, -- 氣
  0xe7acac, -- 第
  0xe59091, -- 向
  0xe98193, -- 道
  0xe591bd, -- 命
  0xe6ada4, -- 此
  0xe8ae8a, -- 變
  0xe6a29d, -- 條
  0xe58faa, -- 只
  0xe6b292, -- 沒
  0xe7b590, -- 結
  0xe8a7a3, -- 解
  0xe5958f, -- 問
  0xe6848f, -- 意
  0xe5bbba, -- 建
  0xe69c88, -- 月
  0xe585ac, -- 公
  0xe784a1, -- 無
  0xe7b3bb, -- 系
  0xe8bb8d, -- 軍
  0xe5be88, -- 很
  0xe68385, -- 情
  0xe88085, -- 者
  0xe69c80, -- 最
  0xe7ab8b, -- 立
  0xe4bba3, -- 代
  0xe683b3, -- 想
  0xe5b7b2, -- 已
  0xe9809a, -- 通
  0xe4b8a6, -- 並
  0xe68f90, -- 提
  0xe79bb4, -- 直
  0xe9a18c, -- 題
  0xe9bba8, -- 黨
  0xe7a88b, -- 程
  0xe5b195, -- 展
  0xe4ba94, -- 五
  0xe69e9c, -- 果
  0xe69699, -- 料
  0xe8b1a1, -- 象
  0xe593a1, -- 員
  0xe99da9, -- 革
  0xe4bd8d, -- 位
  0xe585a5, -- 入
  0xe5b8b8, -- 常
  0xe69687, -- 文
  0xe7b8bd, -- 總
  0xe6aca1, -- 次
  0xe59381, -- 品
  0xe5bc8f, -- 式
  0xe6b4bb, -- 活
  0xe8a8ad, -- 設
  0xe58f8a, -- 及
  0xe7aea1, -- 管
  0xe789b9, -- 特
  0xe4bbb6, -- 件
  0xe995b7, -- 長
  0xe6b182, -- 求
  0xe88081, -- 老
  0xe9a0ad, -- 頭
  0xe59fba, -- 基
  0xe8b387, -- 資
  0xe9828a, -- 邊
  0xe6b581, -- 流
  0xe8b7af, -- 路
  0xe7b49a, -- 級
  0xe5b091, -- 少
  0xe59c96, -- 圖
  0xe5b1b1, -- 山
  0xe7b5b1, -- 統
  0xe68ea5, -- 接
  0xe79fa5, -- 知
  0xe8bc83, -- 較
  0xe5b087, -- 將
  0xe7b584, -- 組
  0xe8a68b, -- 見
  0xe8a888, -- 計
  0xe588a5, -- 別
  0xe5a5b9, -- 她
  0xe6898b, -- 手
  0xe8a792, -- 角
  0xe69c9f, -- 期
  0xe6a0b9, -- 根
  0xe8ab96, -- 論
  0xe9818b, -- 運
  0xe8beb2, -- 農
  0xe68c87, -- 指
  0xe5b9be, -- 幾
  0xe4b99d, -- 九
  0xe58d80, -- 區
  0xe5bcb7, -- 強
  0xe694be, -- 放
  0xe6b1ba, -- 決
  0xe8a5bf, -- 西
  0xe8a2ab, -- 被
  0xe5b9b9, -- 幹
  0xe5819a, -- 做
  0xe5bf85, -- 必
  0xe688b0, -- 戰
  0xe58588, -- 先
  0xe59b9e, -- 回
  0xe58987, -- 則
  0xe4bbbb, -- 任
  0xe58f96, -- 取
  0xe6939a, -- 據
  0xe89995, -- 處
  0xe99a8a, -- 隊
  0xe58d97, -- 南
  0xe7b5a6, -- 給
  0xe889b2, -- 色
  0xe58589, -- 光
  0xe99680, -- 門
  0xe58db3, -- 即
  0xe4bf9d, -- 保
  0xe6b2bb, -- 治
  0xe58c97, -- 北
  0xe980a0, -- 造
  0xe799be, -- 百
  0xe8a68f, -- 規
  0xe786b1, -- 熱
  0xe9a098, -- 領
  0xe4b883, -- 七
  0xe6b5b7, -- 海
  0xe58fa3, -- 口
  0xe69db1, -- 東
  0xe5b08e, -- 導
  0xe599a8, -- 器
  0xe5a393, -- 壓
  0xe5bf97, -- 志
  0xe4b896, -- 世
  0xe98791, -- 金
  0xe5a29e, -- 增
  0xe788ad, -- 爭
  0xe6bf9f, -- 濟
  0xe99a8e, -- 階
  0xe6b2b9, -- 油
  0xe6809d, -- 思
  0xe8a193, -- 術
  0xe6a5b5, -- 極
  0xe4baa4, -- 交
  0xe58f97, -- 受
  0xe881af, -- 聯
  0xe4bb80, -- 什
  0xe8aa8d, -- 認
  0xe585ad, -- 六
  0xe585b1, -- 共
  0xe6ac8a, -- 權
  0xe694b6, -- 收
  0xe8ad89, -- 證
  0xe694b9, -- 改
  0xe6b885, -- 清
  0xe7be8e, -- 美
  0xe5868d, -- 再
  0xe68ea1, -- 採
  0xe8bd89, -- 轉
  0xe69bb4, -- 更
  0xe596ae, -- 單
  0xe9a2a8, -- 風
  0xe58887, -- 切
  0xe68993, -- 打
  0xe799bd, -- 白
  0xe69599, -- 教
  0xe9809f, -- 速
  0xe88ab1, -- 花
  0xe5b8b6, -- 帶
  0xe5ae89, -- 安
  0xe5a0b4, -- 場
  0xe8baab, -- 身
  0xe8bb8a, -- 車
  0xe4be8b, -- 例
  0xe79c9f, -- 真
  0xe58b99, -- 務
  0xe585b7, -- 具
  0xe890ac, -- 萬
  0xe6af8f, -- 每
  0xe79bae, -- 目
  0xe887b3, -- 至
  0xe98194, -- 達
  0xe8b5b0, -- 走
  0xe7a98d, -- 積
  0xe7a4ba, -- 示
  0xe8adb0, -- 議
  0xe881b2, -- 聲
  0xe5a0b1, -- 報
  0xe9aca5, -- 鬥
  0xe5ae8c, -- 完
  0xe9a19e, -- 類
  0xe585ab, -- 八
  0xe99ba2, -- 離
  0xe88faf, -- 華
  0xe5908d, -- 名
  0xe7a2ba, -- 確
  0xe6898d, -- 才
  0xe7a791, -- 科
  0xe5bcb5, -- 張
  0xe4bfa1, -- 信
  0xe9a6ac, -- 馬
  0xe7af80, -- 節
  0xe8a9b1, -- 話
  0xe7b1b3, -- 米
  0xe695b4, -- 整
  0xe7a9ba, -- 空
  0xe58583, -- 元
  0xe6b381, -- 況
  0xe4bb8a, -- 今
  0xe99b86, -- 集
  0xe6baab, -- 溫
  0xe582b3, -- 傳
  0xe59c9f, -- 土
  0xe8a8b1, -- 許
  0xe6ada5, -- 步
  0xe7bea4, -- 群
  0xe5bba3, -- 廣
  0xe79fb3, -- 石
  0xe8a898, -- 記
  0xe99c80, -- 需
  0xe6aeb5, -- 段
  0xe7a094, -- 研
  0xe7958c, -- 界
  0xe68b89, -- 拉
  0xe69e97, -- 林
  0xe5be8b, -- 律
  0xe58fab, -- 叫
  0xe4b894, -- 且
  0xe7a9b6, -- 究
  0xe8a780, -- 觀
  0xe8b68a, -- 越
  0xe7b994, -- 織
  0xe8a39d, -- 裝
  0xe5bdb1, -- 影
  0xe7ae97, -- 算
  0xe4bd8e, -- 低
  0xe68c81, -- 持
  0xe99fb3, -- 音
  0xe79cbe, -- 眾
  0xe69bb8, -- 書
  0xe5b883, -- 布
  0xe5a48d, -- 复
  0xe5aeb9, -- 容
  0xe58592, -- 兒
  0xe9a088, -- 須
  0xe99a9b, -- 際
  0xe59586, -- 商
  0xe99d9e, -- 非
  0xe9a997, -- 驗
  0xe980a3, -- 連
  0xe696b7, -- 斷
  0xe6b7b1, -- 深
  0xe99ba3, -- 難
  0xe8bf91, -- 近
  0xe7a4a6, -- 礦
  0xe58d83, -- 千
  0xe980b1, -- 週
  0xe5a794, -- 委
  0xe7b4a0, -- 素
  0xe68a80, -- 技
  0xe58299, -- 備
  0xe58d8a, -- 半
  0xe8bea6, -- 辦
  0xe99d92, -- 青
  0xe79c81, -- 省
  0xe58897, -- 列
  0xe7bf92, -- 習
  0xe99fbf, -- 響
  0xe7b484, -- 約
  0xe694af, -- 支
  0xe888ac, -- 般
  0xe58fb2, -- 史
  0xe6849f, -- 感
  0xe58b9e, -- 勞
  0xe4bebf, -- 便
  0xe59c98, -- 團
  0xe5be80, -- 往
  0xe985b8, -- 酸
  0xe6adb7, -- 歷
  0xe5b882, -- 市
  0xe5858b, -- 克
  0xe4bd95, -- 何
  0xe999a4, -- 除
  0xe6b688, -- 消
  0xe6a78b, -- 構
  0xe5ba9c, -- 府
  0xe7a8b1, -- 稱
  0xe5a4aa, -- 太
  0xe6ba96, -- 準
  0xe7b2be, -- 精
  0xe580bc, -- 值
  0xe8999f, -- 號
  0xe78e87, -- 率
  0xe6978f, -- 族
  0xe7b6ad, -- 維
  0xe58a83, -- 劃
  0xe981b8, -- 選
  0xe6a899, -- 標
  0xe5afab, -- 寫
  0xe5ad98, -- 存
  0xe58099, -- 候
  0xe6af9b, -- 毛
  0xe8a6aa, -- 親
  0xe5bfab, -- 快
  0xe69588, -- 效
  0xe696af, -- 斯
  0xe999a2, -- 院
  0xe69fa5, -- 查
  0xe6b19f, -- 江
  0xe59e8b, -- 型
  0xe79cbc, -- 眼
  0xe78e8b, -- 王
  0xe68c89, -- 按
  0xe6a0bc, -- 格
  0xe9a48a, -- 養
  0xe69893, -- 易
  0xe7bdae, -- 置
  0xe6b4be, -- 派
  0xe5b1a4, -- 層
  0xe78987, -- 片
  0xe5a78b, -- 始
  0xe58dbb, -- 卻
  0xe5b088, -- 專
  0xe78b80, -- 狀
  0xe882b2, -- 育
  0xe5bba0, -- 廠
  0xe4baac, -- 京
  0xe8ad98, -- 識
  0xe981a9, -- 適
  0xe5b1ac, -- 屬
  0xe59c93, -- 圓
  0xe58c85, -- 包
  0xe781ab, -- 火
  0xe4bd8f, -- 住
  0xe8aabf, -- 調
  0xe6bbbf, -- 滿
  0xe7b8a3, -- 縣
  0xe5b180, -- 局
  0xe785a7, -- 照
  0xe58f83, -- 參
  0xe7b485, -- 紅
  0xe7b4b0, -- 細
  0xe5bc95, -- 引
  0xe881bd, -- 聽
  0xe8a9b2, -- 該
  0xe990b5, -- 鐵
  0xe583b9, -- 價
  0xe59ab4, -- 嚴
  0xe9a696, -- 首
  0xe5ba95, -- 底
  0xe6b6b2, -- 液
  0xe5ae98, -- 官
  0xe5beb7, -- 德
  0xe99aa8, -- 隨
  0xe79785, -- 病
  0xe89887, -- 蘇
  0xe5a4b1, -- 失
  0xe788be, -- 爾
  0xe6adbb, -- 死
  0xe8ac9b, -- 講
  0xe9858d, -- 配
  0xe5a5b3, -- 女
  0xe9bb83, -- 黃
  0xe68ea8, -- 推
  0xe9a1af, -- 顯
  0xe8ab87, -- 談
  0xe7bdaa, -- 罪
  0xe7a59e, -- 神
  0xe8979d, -- 藝
  0xe591a2, -- 呢
  0xe5b8ad, -- 席
  0xe590ab, -- 含
  0xe4bc81, -- 企
  0xe69c9b, -- 望
  0xe5af86, -- 密
  0xe689b9, -- 批
  0xe7879f, -- 營
  0xe9a085, -- 項
  0xe998b2, -- 防
  0xe88889, -- 舉
  0xe79083, -- 球
  0xe88bb1, -- 英
  0xe6b0a7, -- 氧
  0xe58ba2, -- 勢
  0xe5918a, -- 告
  0xe69d8e, -- 李
  0xe58fb0, -- 台
  0xe890bd, -- 落
  0xe69ca8, -- 木
  0xe5b9ab, -- 幫
  0xe8bcaa, -- 輪
  0xe7a0b4, -- 破
  0xe4ba9e, -- 亞
  0xe5b8ab, -- 師
  0xe59c8d, -- 圍
  0xe6b3a8, -- 注
  0xe981a0, -- 遠
  0xe5ad97, -- 字
  0xe69d90, -- 材
  0xe68e92, -- 排
  0xe4be9b, -- 供
  0xe6b2b3, -- 河
  0xe6858b, -- 態
  0xe5b081, -- 封
  0xe58fa6, -- 另
  0xe696bd, -- 施
  0xe6b89b, -- 減
  0xe6a8b9, -- 樹
  0xe6bab6, -- 溶
  0xe6808e, -- 怎
  0xe6ada2, -- 止
  0xe6a188, -- 案
  0xe8a880, -- 言
  0xe5a3ab, -- 士
  0xe59d87, -- 均
  0xe6ada6, -- 武
  0xe59bba, -- 固
  0xe89189, -- 葉
  0xe9ad9a, -- 魚
  0xe6b3a2, -- 波
  0xe8a696, -- 視
  0xe58385, -- 僅
  0xe8b2bb, -- 費
  0xe7b78a, -- 緊
  0xe6849b, -- 愛
  0xe5b7a6, -- 左
  0xe7aba0, -- 章
  0xe697a9, -- 早
  0xe69c9d, -- 朝
  0xe5aeb3, -- 害
  0xe7ba8c, -- 續
  0xe8bc95, -- 輕
  0xe69c8d, -- 服
  0xe8a9a6, -- 試
  0xe9a39f, -- 食
  0xe58585, -- 充
  0xe585b5, -- 兵
  0xe6ba90, -- 源
  0xe588a4, -- 判
  0xe8adb7, -- 護
  0xe58fb8, -- 司
  0xe8b6b3, -- 足
  0xe69f90, -- 某
  0xe7b7b4, -- 練
  0xe5b7ae, -- 差
  0xe887b4, -- 致
  0xe69dbf, -- 板
  0xe794b0, -- 田
  0xe9998d, -- 降
  0xe9bb91, -- 黑
  0xe78aaf, -- 犯
  0xe8b2a0, -- 負
  0xe6938a, -- 擊
  0xe88c83, -- 范
  0xe7b9bc, -- 繼
  0xe88888, -- 興
  0xe4bcbc, -- 似
  0xe9a498, -- 餘
  0xe5a085, -- 堅
  0xe69bb2, -- 曲
  0xe8bcb8, -- 輸
  0xe4bfae, -- 修
  0xe69585, -- 故
  0xe59f8e, -- 城
  0xe5a4ab, -- 夫
  0xe5a4a0, -- 夠
  0xe98081, -- 送
  0xe7ad86, -- 筆
  0xe888b9, -- 船
  0xe4bd94, -- 佔
  0xe58fb3, -- 右
  0xe8b2a1, -- 財
  0xe59083, -- 吃
  0xe5af8c, -- 富
  0xe698a5, -- 春
  0xe881b7, -- 職
  0xe8a6ba, -- 覺
  0xe6bca2, -- 漢
  0xe795ab, -- 畫
  0xe58a9f, -- 功
  0xe5b7b4, -- 巴
  0xe8b79f, -- 跟
  0xe99b96, -- 雖
  0xe99b9c, -- 雜
  0xe9a39b, -- 飛
  0xe6aaa2, -- 檢
  0xe590b8, -- 吸
  0xe58aa9, -- 助
  0xe69887, -- 昇
  0xe999bd, -- 陽
  0xe4ba92, -- 互
  0xe5889d, -- 初
  0xe589b5, -- 創
  0xe68a97, -- 抗
  0xe88083, -- 考
  0xe68a95, -- 投
  0xe5a39e, -- 壞
  0xe7ad96, -- 策
  0xe58fa4, -- 古
  0xe5be91, -- 徑
  0xe68f9b, -- 換
  0xe69caa, -- 未
  0xe8b791, -- 跑
  0xe79599, -- 留
  0xe98bbc, -- 鋼
  0xe69bbe, -- 曾
  0xe7abaf, -- 端
  0xe8b2ac, -- 責
  0xe7ab99, -- 站
  0xe7b0a1, -- 簡
  0xe8bfb0, -- 述
  0xe98ca2, -- 錢
  0xe589af, -- 副
  0xe79ba1, -- 盡
  0xe5b89d, -- 帝
  0xe5b084, -- 射
  0xe88d89, -- 草
  0xe8a19d, -- 衝
  0xe689bf, -- 承
  0xe78da8, -- 獨
  0xe4bba4, -- 令
  0xe99990, -- 限
  0xe998bf, -- 阿
  0xe5aea3, -- 宣
  0xe792b0, -- 環
  0xe99b99, -- 雙
  0xe8ab8b, -- 請
  0xe8b685, -- 超
  0xe5beae, -- 微
  0xe8ae93, -- 讓
  0xe68ea7, -- 控
  0xe5b79e, -- 州
  0xe889af, -- 良
  0xe8bbb8, -- 軸
  0xe689be, -- 找
  0xe590a6, -- 否
  0xe7b480, -- 紀
  0xe79b8a, -- 益
  0xe4be9d, -- 依
  0xe584aa, -- 優
  0xe9a082, -- 頂
  0xe7a48e, -- 礎
  0xe8bc89, -- 載
  0xe58092, -- 倒
  0xe688bf, -- 房
  0xe7aa81, -- 突
  0xe59d90, -- 坐
  0xe7b289, -- 粉
  0xe695b5, -- 敵
  0xe795a5, -- 略
  0xe5aea2, -- 客
  0xe8a281, -- 袁
  0xe586b7, -- 冷
  0xe58b9d, -- 勝
  0xe7b595, -- 絕
  0xe69e90, -- 析
  0xe5a18a, -- 塊
  0xe58a91, -- 劑
  0xe6b8ac, -- 測
  0xe7b5b2, -- 絲
  0xe58d94, -- 協
  0xe8a8b4, -- 訴
  0xe5bfb5, -- 念
  0xe999b3, -- 陳
  0xe4bb8d, -- 仍
  0xe7be85, -- 羅
  0xe9b9bd, -- 鹽
  0xe58f8b, -- 友
  0xe6b48b, -- 洋
  0xe98caf, -- 錯
  0xe88ba6, -- 苦
  0xe5a49c, -- 夜
  0xe58891, -- 刑
  0xe7a7bb, -- 移
  0xe9a0bb, -- 頻
  0xe98090, -- 逐
  0xe99da0, -- 靠
  0xe6b7b7, -- 混
  0xe6af8d, -- 母
  0xe79fad, -- 短
  0xe79aae, -- 皮
  0xe7b582, -- 終
  0xe8819a, -- 聚
  0xe6b1bd, -- 汽
  0xe69d91, -- 村
  0xe99bb2, -- 雲
  0xe593aa, -- 哪
  0xe697a2, -- 既
  0xe8b79d, -- 距
  0xe8a19b, -- 衛
  0xe5819c, -- 停
  0xe78388, -- 烈
  0xe5a4ae, -- 央
  0xe5af9f, -- 察
  0xe78792, -- 燒
  0xe8bf85, -- 迅
  0xe5a283, -- 境
  0xe88ba5, -- 若
  0xe58db0, -- 印
  0xe6b4b2, -- 洲
  0xe588bb, -- 刻
  0xe68bac, -- 括
  0xe6bf80, -- 激
  0xe5ad94, -- 孔
  0xe6909e, -- 搞
  0xe7949a, -- 甚
  0xe5aea4, -- 室
  0xe5be85, -- 待
  0xe6a0b8, -- 核
  0xe6a0a1, -- 校
  0xe695a3, -- 散
  0xe4beb5, -- 侵
  0xe590a7, -- 吧
  0xe794b2, -- 甲
  0xe9818a, -- 遊
  0xe4b985, -- 久
  0xe88f9c, -- 菜
  0xe591b3, -- 味
  0xe8888a, -- 舊
  0xe6a8a1, -- 模
  0xe6b996, -- 湖
  0xe8b2a8, -- 貨
  0xe6908d, -- 損
  0xe9a090, -- 預
  0xe998bb, -- 阻
  0xe6afab, -- 毫
  0xe699ae, -- 普
  0xe7a9a9, -- 穩
  0xe4b999, -- 乙
  0xe5aabd, -- 媽
  0xe6a48d, -- 植
  0xe681af, -- 息
  0xe693b4, -- 擴
  0xe98a80, -- 銀
  0xe8aa9e, -- 語
  0xe68fae, -- 揮
  0xe98592, -- 酒
  0xe5ae88, -- 守
  0xe68bbf, -- 拿
  0xe5ba8f, -- 序
  0xe7b499, -- 紙
  0xe986ab, -- 醫
  0xe7bcba, -- 缺
  0xe99ba8, -- 雨
  0xe5978e, -- 嗎
  0xe9879d, -- 針
  0xe58a89, -- 劉
  0xe5958a, -- 啊
  0xe680a5, -- 急
  0xe594b1, -- 唱
  0xe8aaa4, -- 誤
  0xe8a893, -- 訓
  0xe9a198, -- 願
  0xe5afa9, -- 審
  0xe99984, -- 附
  0xe78db2, -- 獲
  0xe88cb6, -- 茶
  0xe9aeae, -- 鮮
  0xe7b3a7, -- 糧
  0xe696a4, -- 斤
  0xe5ada9, -- 孩
  0xe884ab, -- 脫
  0xe7a1ab, -- 硫
  0xe882a5, -- 肥
  0xe59684, -- 善
  0xe9be8d, -- 龍
  0xe6bc94, -- 演
  0xe788b6, -- 父
  0xe6bcb8, -- 漸
  0xe8a180, -- 血
  0xe6ada1, -- 歡
  0xe6a2b0, -- 械
  0xe68e8c, -- 掌
  0xe6ad8c, -- 歌
  0xe6b299, -- 沙
  0xe5899b, -- 剛
  0xe694bb, -- 攻
  0xe8ac82, -- 謂
  0xe79bbe, -- 盾
  0xe8a88e, -- 討
  0xe6999a, -- 晚
  0xe7b292, -- 粒
  0xe4ba82, -- 亂
  0xe78783, -- 燃
  0xe79f9b, -- 矛
  0xe4b98e, -- 乎
  0xe6aeba, -- 殺
  0xe897a5, -- 藥
  0xe5afa7, -- 寧
  0xe9adaf, -- 魯
  0xe8b2b4, -- 貴
  0xe99098, -- 鐘
  0xe785a4, -- 煤
  0xe8ae80, -- 讀
  0xe78fad, -- 班
  0xe4bcaf, -- 伯
  0xe9a699, -- 香
  0xe4bb8b, -- 介
  0xe8bfab, -- 迫
  0xe58fa5, -- 句
  0xe8b190, -- 豐
  0xe59fb9, -- 培
  0xe68fa1, -- 握
  0xe898ad, -- 蘭
  0xe69394, -- 擔
  0xe5bca6, -- 弦
  0xe89b8b, -- 蛋
  0xe6b289, -- 沉
  0xe58187, -- 假
  0xe7a9bf, -- 穿
  0xe59fb7, -- 執
  0xe7ad94, -- 答
  0xe6a882, -- 樂
  0xe8aab0, -- 誰
  0xe9a086, -- 順
  0xe78599, -- 煙
  0xe7b8ae, -- 縮
  0xe5beb5, -- 徵
  0xe88789, -- 臉
  0xe5969c, -- 喜
  0xe69dbe, -- 松
  0xe885b3, -- 腳
  0xe59bb0, -- 困
  0xe795b0, -- 異
  0xe5858d, -- 免
  0xe8838c, -- 背
  0xe6989f, -- 星
  0xe7a68f, -- 福
  0xe8b2b7, -- 買
  0xe69f93, -- 染
  0xe4ba95, -- 井
  0xe6a682, -- 概
  0xe685a2, -- 慢
  0xe68095, -- 怕
  0xe7a381, -- 磁
  0xe5808d, -- 倍
  0xe7a596, -- 祖
  0xe79a87, -- 皇
  0xe4bf83, -- 促
  0xe99d9c, -- 靜
  0xe8a39c, -- 補
  0xe8a995, -- 評
  0xe7bfbb, -- 翻
  0xe88289, -- 肉
  0xe8b890, -- 踐
  0xe5b0bc, -- 尼
  0xe8a1a3, -- 衣
  0xe5afac, -- 寬
  0xe68f9a, -- 揚
  0xe6a389, -- 棉
  0xe5b88c, -- 希
  0xe582b7, -- 傷
  0xe6938d, -- 操
  0xe59e82, -- 垂
  0xe7a78b, -- 秋
  0xe5ae9c, -- 宜
  0xe6b0ab, -- 氫
  0xe5a597, -- 套
  0xe79da3, -- 督
  0xe68caf, -- 振
  0xe69eb6, -- 架
  0xe4baae, -- 亮
  0xe69cab, -- 末
  0xe686b2, -- 憲
  0xe685b6, -- 慶
  0xe7b7a8, -- 編
  0xe7899b, -- 牛
  0xe8a7b8, -- 觸
  0xe698a0, -- 映
  0xe99bb7, -- 雷
  0xe98ab7, -- 銷
  0xe8a9a9, -- 詩
  0xe5baa7, -- 座
  0xe5b185, -- 居
  0xe68a93, -- 抓
  0xe8a382, -- 裂
  0xe8839e, -- 胞
  0xe591bc, -- 呼
  0xe5a898, -- 娘
  0xe699af, -- 景
  0xe5a881, -- 威
  0xe7b6a0, -- 綠
  0xe699b6, -- 晶
  0xe58e9a, -- 厚
  0xe79b9f, -- 盟
  0xe8a1a1, -- 衡
  0xe99b9e, -- 雞
  0xe5adab, -- 孫
  0xe5bbb6, -- 延
  0xe58db1, -- 危
  0xe886a0, -- 膠
  0xe5b18b, -- 屋
  0xe98489, -- 鄉
  0xe887a8, -- 臨
  0xe999b8, -- 陸
  0xe9a1a7, -- 顧
  0xe68e89, -- 掉
  0xe59180, -- 呀
  0xe78788, -- 燈
  0xe6adb2, -- 歲
  0xe68eaa, -- 措
  0xe69d9f, -- 束
  0xe88090, -- 耐
  0xe58a87, -- 劇
  0xe78e89, -- 玉
  0xe8b699, -- 趙
  0xe8b7b3, -- 跳
  0xe593a5, -- 哥
  0xe5ada3, -- 季
  0xe8aab2, -- 課
  0xe587b1, -- 凱
  0xe883a1, -- 胡
  0xe9a18d, -- 額
  0xe6acbe, -- 款
  0xe7b4b9, -- 紹
  0xe58db7, -- 卷
  0xe9bd8a, -- 齊
  0xe58189, -- 偉
  0xe892b8, -- 蒸
  0xe6ae96, -- 殖
  0xe6b0b8, -- 永
  0xe5ae97, -- 宗
  0xe88b97, -- 苗
  0xe5b79d, -- 川
  0xe78890, -- 爐
  0xe5b2a9, -- 岩
  0xe5bcb1, -- 弱
  0xe99bb6, -- 零
  0xe6a58a, -- 楊
  0xe5a58f, -- 奏
  0xe6b2bf, -- 沿
  0xe99cb2, -- 露
  0xe6a1bf, -- 桿
  0xe68ea2, -- 探
  0xe6bb91, -- 滑
  0xe98eae, -- 鎮
  0xe9a3af, -- 飯
  0xe6bf83, -- 濃
  0xe888aa, -- 航
  0xe687b7, -- 懷
  0xe8b695, -- 趕
  0xe5baab, -- 庫
  0xe5a5aa, -- 奪
  0xe4bc8a, -- 伊
  0xe99d88, -- 靈
  0xe7a885, -- 稅
  0xe98094, -- 途
  0xe6bb85, -- 滅
  0xe8b3bd, -- 賽
  0xe6adb8, -- 歸
  0xe58fac, -- 召
  0xe9bc93, -- 鼓
  0xe692ad, -- 播
  0xe79ba4, -- 盤
  0xe8a381, -- 裁
  0xe99aaa, -- 險
  0xe5bab7, -- 康
  0xe594af, -- 唯
  0xe98c84, -- 錄
  0xe88f8c, -- 菌
  0xe7b494, -- 純
  0xe5809f, -- 借
  0xe7b396, -- 糖
  0xe8938b, -- 蓋
  0xe6a9ab, -- 橫
  0xe7aca6, -- 符
  0xe7a781, -- 私
  0xe58aaa, -- 努
  0xe5a082, -- 堂
  0xe59f9f, -- 域
  0xe6a78d, -- 槍
  0xe6bda4, -- 潤
  0xe5b985, -- 幅
  0xe59388, -- 哈
  0xe7ab9f, -- 竟
  0xe7869f, -- 熟
  0xe89fb2, -- 蟲
  0xe6bea4, -- 澤
  0xe885a6, -- 腦
  0xe5a3a4, -- 壤
  0xe7a2b3, -- 碳
  0xe6ad90, -- 歐
  0xe9818d, -- 遍
  0xe581b4, -- 側
  0xe5afa8, -- 寨
  0xe695a2, -- 敢
  0xe5beb9, -- 徹
  0xe685ae, -- 慮
  0xe6969c, -- 斜
  0xe89684, -- 薄
  0xe5baad, -- 庭
  0xe7b48d, -- 納
  0xe5bd88, -- 彈
  0xe9a3bc, -- 飼
  0xe4bcb8, -- 伸
  0xe68a98, -- 折
  0xe9baa5, -- 麥
  0xe6bf95, -- 濕
  0xe69a97, -- 暗
  0xe88db7, -- 荷
  0xe793a6, -- 瓦
  0xe5a19e, -- 塞
  0xe5ba8a, -- 床
  0xe7af89, -- 築
  0xe683a1, -- 惡
  0xe688b6, -- 戶
  0xe8a8aa, -- 訪
  0xe5a194, -- 塔
  0xe5a587, -- 奇
  0xe9808f, -- 透
  0xe6a281, -- 梁
  0xe58880, -- 刀
  0xe6978b, -- 旋
  0xe8b7a1, -- 跡
  0xe58da1, -- 卡
  0xe6b0af, -- 氯
  0xe98187, -- 遇
  0xe4bbbd, -- 份
  0xe6af92, -- 毒
  0xe6b3a5, -- 泥
  0xe98080, -- 退
  0xe6b497, -- 洗
  0xe693ba, -- 擺
  0xe781b0, -- 灰
  0xe5bda9, -- 彩
  0xe8b3a3, -- 賣
  0xe88097, -- 耗
  0xe5a48f, -- 夏
  0xe69387, -- 擇
  0xe5bf99, -- 忙
  0xe98a85, -- 銅
  0xe78dbb, -- 獻
  0xe7a1ac, -- 硬
  0xe4ba88, -- 予
  0xe7b981, -- 繁
  0xe59c88, -- 圈
  0xe99baa, -- 雪
  0xe587bd, -- 函
  0xe4baa6, -- 亦
  0xe68abd, -- 抽
  0xe7af87, -- 篇
  0xe999a3, -- 陣
  0xe999b0, -- 陰
  0xe4b881, -- 丁
  0xe5b0ba, -- 尺
  0xe8bfbd, -- 追
  0xe5a086, -- 堆
  0xe99b84, -- 雄
  0xe8bf8e, -- 迎
  0xe6b39b, -- 泛
  0xe788b8, -- 爸
  0xe6a893, -- 樓
  0xe981bf, -- 避
  0xe8ac80, -- 謀
  0xe599b8, -- 噸
  0xe9878e, -- 野
  0xe8b1ac, -- 豬
  0xe69797, -- 旗
  0xe7b4af, -- 累
  0xe5818f, -- 偏
  0xe585b8, -- 典
  0xe9a4a8, -- 館
  0xe7b4a2, -- 索
  0xe7a7a6, -- 秦
  0xe88482, -- 脂
  0xe6bdae, -- 潮
  0xe788ba, -- 爺
  0xe8b186, -- 豆
  0xe5bfbd, -- 忽
  0xe68998, -- 托
  0xe9a99a, -- 驚
  0xe5a191, -- 塑
  0xe981ba, -- 遺
  0xe68488, -- 愈
  0xe69cb1, -- 朱
  0xe69bbf, -- 替
  0xe7ba96, -- 纖
  0xe7b297, -- 粗
  0xe582be, -- 傾
  0xe5b09a, -- 尚
  0xe7979b, -- 痛
  0xe6a59a, -- 楚
  0xe8ac9d, -- 謝
  0xe5a5ae, -- 奮
  0xe8b3bc, -- 購
  0xe7a3a8, -- 磨
  0xe5909b, -- 君
  0xe6b1a0, -- 池
  0xe69781, -- 旁
  0xe7a28e, -- 碎
  0xe9aaa8, -- 骨
  0xe79ba3, -- 監
  0xe68d95, -- 捕
  0xe5bc9f, -- 弟
  0xe69ab4, -- 暴
  0xe589b2, -- 割
  0xe8b2ab, -- 貫
  0xe6ae8a, -- 殊
  0xe9878b, -- 釋
  0xe8a99e, -- 詞
  0xe4baa1, -- 亡
  0xe5a381, -- 壁
  0xe9a093, -- 頓
  0xe5afb6, -- 寶
  0xe58d88, -- 午
  0xe5a1b5, -- 塵
  0xe8819e, -- 聞
  0xe68fad, -- 揭
  0xe782ae, -- 炮
  0xe6ae98, -- 殘
  0xe586ac, -- 冬
  0xe6a98b, -- 橋
  0xe5a9a6, -- 婦
  0xe8ada6, -- 警
  0xe7b69c, -- 綜
  0xe68b9b, -- 招
  0xe590b3, -- 吳
  0xe4bb98, -- 付
  0xe6b5ae, -- 浮
  0xe981ad, -- 遭
  0xe5be90, -- 徐
  0xe682a8, -- 您
  0xe69096, -- 搖
  0xe8b0b7, -- 谷
  0xe8b48a, -- 贊
  0xe7aeb1, -- 箱
  0xe99a94, -- 隔
  0xe8a882, -- 訂
  0xe794b7, -- 男
  0xe590b9, -- 吹
  0xe59c92, -- 園
  0xe7b49b, -- 紛
  0xe59490, -- 唐
  0xe69597, -- 敗
  0xe5ae8b, -- 宋
  0xe78ebb, -- 玻
  0xe5b7a8, -- 巨
  0xe88095, -- 耕
  0xe59da6, -- 坦
  0xe6a6ae, -- 榮
  0xe99689, -- 閉
  0xe781a3, -- 灣
  0xe98db5, -- 鍵
  0xe587a1, -- 凡
  0xe9a790, -- 駐
  0xe98d8b, -- 鍋
  0xe69591, -- 救
  0xe681a9, -- 恩
  0xe5899d, -- 剝
  0xe5879d, -- 凝
  0xe9b9bc, -- 鹼
  0xe9bd92, -- 齒
  0xe688aa, -- 截
  0xe78589, -- 煉
  0xe9babb, -- 麻
  0xe7b4a1, -- 紡
  0xe7a681, -- 禁
  0xe5bba2, -- 廢
  0xe79b9b, -- 盛
  0xe78988, -- 版
  0xe7b7a9, -- 緩
  0xe6b7a8, -- 淨
  0xe79d9b, -- 睛
  0xe6988c, -- 昌
  0xe5a99a, -- 婚
  0xe6b689, -- 涉
  0xe7ad92, -- 筒
  0xe598b4, -- 嘴
  0xe68f92, -- 插
  0xe5b2b8, -- 岸
  0xe69c97, -- 朗
  0xe88e8a, -- 莊
  0xe8a197, -- 街
  0xe8978f, -- 藏
  0xe5a791, -- 姑
  0xe8b2bf, -- 貿
  0xe88590, -- 腐
  0xe5a5b4, -- 奴
  0xe595a6, -- 啦
  0xe685a3, -- 慣
  0xe4b998, -- 乘
  0xe5a4a5, -- 夥
  0xe681a2, -- 恢
  0xe58bbb, -- 勻
  0xe7b497, -- 紗
  0xe6898e, -- 扎
  0xe8beaf, -- 辯
  0xe880b3, -- 耳
  0xe5bdaa, -- 彪
  0xe887a3, -- 臣
  0xe58484, -- 億
  0xe79283, -- 璃
  0xe68ab5, -- 抵
  0xe88488, -- 脈
  0xe7a780, -- 秀
  0xe896a9, -- 薩
  0xe4bf84, -- 俄
  0xe7b6b2, -- 網
  0xe8889e, -- 舞
  0xe5ba97, -- 店
  0xe599b4, -- 噴
  0xe7b8b1, -- 縱
  0xe5afb8, -- 寸
  0xe6b197, -- 汗
  0xe68e9b, -- 掛
  0xe6b4aa, -- 洪
  0xe8b380, -- 賀
  0xe99683, -- 閃
  0xe69fac, -- 柬
  0xe78886, -- 爆
  0xe783af, -- 烯
  0xe6b4a5, -- 津
  0xe7a8bb, -- 稻
  0xe78986, -- 牆
  0xe8bb9f, -- 軟
  0xe58b87, -- 勇
  0xe5838f, -- 像
  0xe6bbbe, -- 滾
  0xe58e98, -- 厘
  0xe89299, -- 蒙
  0xe88ab3, -- 芳
  0xe882af, -- 肯
  0xe59da1, -- 坡
  0xe69fb1, -- 柱
  0xe79baa, -- 盪
  0xe885bf, -- 腿
  0xe58480, -- 儀
  0xe69785, -- 旅
  0xe5b0be, -- 尾
  0xe8bb8b, -- 軋
  0xe586b0, -- 冰
  0xe8b2a2, -- 貢
  0xe799bb, -- 登
  0xe9bb8e, -- 黎
  0xe5898a, -- 削
  0xe991bd, -- 鑽
  0xe58b92, -- 勒
  0xe98083, -- 逃
  0xe99a9c, -- 障
  0xe6b0a8, -- 氨
  0xe983ad, -- 郭
  0xe5b3b0, -- 峰
  0xe5b9a3, -- 幣
  0xe6b8af, -- 港
  0xe4bc8f, -- 伏
  0xe8bb8c, -- 軌
  0xe7959d, -- 畝
  0xe795a2, -- 畢
  0xe693a6, -- 擦
  0xe88eab, -- 莫
  0xe588ba, -- 刺
  0xe6b5aa, -- 浪
  0xe7a798, -- 秘
  0xe68fb4, -- 援
  0xe6a0aa, -- 株
  0xe581a5, -- 健
  0xe594ae, -- 售
  0xe882a1, -- 股
  0xe5b3b6, -- 島
  0xe79498, -- 甘
  0xe6b3a1, -- 泡
  0xe79da1, -- 睡
  0xe7aba5, -- 童
  0xe99184, -- 鑄
  0xe6b9af, -- 湯
  0xe996a5, -- 閥
  0xe4bc91, -- 休
  0xe58caf, -- 匯
  0xe8888d, -- 舍
  0xe789a7, -- 牧
  0xe7b99e, -- 繞
  0xe782b8, -- 炸
  0xe593b2, -- 哲
  0xe7a3b7, -- 磷
  0xe7b8be, -- 績
  0xe69c8b, -- 朋
  0xe6b7a1, -- 淡
  0xe5b096, -- 尖
  0xe5959f, -- 啟
  0xe999b7, -- 陷
  0xe69fb4, -- 柴
  0xe59188, -- 呈
  0xe5be92, -- 徒
  0xe9a18f, -- 顏
  0xe6b79a, -- 淚
  0xe7a88d, -- 稍
  0xe5bf98, -- 忘
  0xe6b3b5, -- 泵
  0xe8978d, -- 藍
  0xe68b96, -- 拖
  0xe6b49e, -- 洞
  0xe68e88, -- 授
  0xe98fa1, -- 鏡
  0xe8be9b, -- 辛
  0xe5a3af, -- 壯
  0xe98b92, -- 鋒
  0xe8b2a7, -- 貧
  0xe8999b, -- 虛
  0xe5bd8e, -- 彎
  0xe691a9, -- 摩
  0xe6b3b0, -- 泰
  0xe5b9bc, -- 幼
  0xe5bbb7, -- 廷
  0xe5b08a, -- 尊
  0xe7aa97, -- 窗
  0xe7b6b1, -- 綱
  0xe5bc84, -- 弄
  0xe99ab8, -- 隸
  0xe79691, -- 疑
  0xe6b08f, -- 氏
  0xe5aeae, -- 宮
  0xe5a790, -- 姐
  0xe99c87, -- 震
  0xe7919e, -- 瑞
  0xe680aa, -- 怪
  0xe5b0a4, -- 尤
  0xe790b4, -- 琴
  0xe5beaa, -- 循
  0xe68f8f, -- 描
  0xe8869c, -- 膜
  0xe98195, -- 違
  0xe5a4be, -- 夾
  0xe885b0, -- 腰
  0xe7b7a3, -- 緣
  0xe78fa0, -- 珠
  0xe7aaae, -- 窮
  0xe6a3ae, -- 森
  0xe69e9d, -- 枝
  0xe7abb9, -- 竹
  0xe6ba9d, -- 溝
  0xe582ac, -- 催
  0xe7b9a9, -- 繩
  0xe686b6, -- 憶
  0xe982a6, -- 邦
  0xe589a9, -- 剩
  0xe5b9b8, -- 幸
  0xe6bcbf, -- 漿
  0xe6ac84, -- 欄
  0xe69381, -- 擁
  0xe78999, -- 牙
  0xe8b2af, -- 貯
  0xe7a6ae, -- 禮
  0xe6bfbe, -- 濾
  0xe98889, -- 鈉
  0xe7b48b, -- 紋
  0xe7bdb7, -- 罷
  0xe68b8d, -- 拍
  0xe592b1, -- 咱
  0xe5968a, -- 喊
  0xe8a296, -- 袖
  0xe59f83, -- 埃
  0xe58ba4, -- 勤
  0xe7bdb0, -- 罰
  0xe784a6, -- 焦
  0xe6bd9b, -- 潛
  0xe4bc8d, -- 伍
  0xe5a2a8, -- 墨
  0xe6acb2, -- 欲
  0xe7b8ab, -- 縫
  0xe5a793, -- 姓
  0xe5888a, -- 刊
  0xe9a3bd, -- 飽
  0xe4bbbf, -- 仿
  0xe78d8e, -- 獎
  0xe98b81, -- 鋁
  0xe9acbc, -- 鬼
  0xe9ba97, -- 麗
  0xe8b7a8, -- 跨
  0xe9bb98, -- 默
  0xe68c96, -- 挖
  0xe98f88, -- 鏈
  0xe68e83, -- 掃
  0xe5969d, -- 喝
  0xe8a28b, -- 袋
  0xe782ad, -- 炭
  0xe6b1a1, -- 污
  0xe5b995, -- 幕
  0xe8abb8, -- 諸
  0xe5bca7, -- 弧
  0xe58bb5, -- 勵
  0xe6a285, -- 梅
  0xe5a5b6, -- 奶
  0xe6bd94, -- 潔
  0xe781bd, -- 災
  0xe8889f, -- 舟
  0xe99191, -- 鑑
  0xe88baf, -- 苯
  0xe8a89f, -- 訟
  0xe68ab1, -- 抱
  0xe6af80, -- 毀
  0xe68782, -- 懂
  0xe5af92, -- 寒
  0xe699ba, -- 智
  0xe59f94, -- 埔
  0xe5af84, -- 寄
  0xe5b186, -- 屆
  0xe8ba8d, -- 躍
  0xe6b8a1, -- 渡
  0xe68c91, -- 挑
  0xe4b8b9, -- 丹
  0xe889b1, -- 艱
  0xe8b29d, -- 貝
  0xe7a2b0, -- 碰
  0xe68b94, -- 拔
  0xe788b9, -- 爹
  0xe688b4, -- 戴
  0xe7a2bc, -- 碼
  0xe5a4a2, -- 夢
  0xe88abd, -- 芽
  0xe78694, -- 熔
  0xe8b5a4, -- 赤
  0xe6bc81, -- 漁
  0xe593ad, -- 哭
  0xe695ac, -- 敬
  0xe9a186, -- 顆
  0xe5a594, -- 奔
  0xe9899b, -- 鉛
  0xe4bbb2, -- 仲
  0xe8998e, -- 虎
  0xe7a880, -- 稀
  0xe5a6b9, -- 妹
  0xe4b98f, -- 乏
  0xe78f8d, -- 珍
  0xe794b3, -- 申
  0xe6a18c, -- 桌
  0xe981b5, -- 遵
  0xe58581, -- 允
  0xe99a86, -- 隆
  0xe89eba, -- 螺
  0xe58089, -- 倉
  0xe9ad8f, -- 魏
  0xe98ab3, -- 銳
  0xe69b89, -- 曉
  0xe6b0ae, -- 氮
  0xe585bc, -- 兼
  0xe99ab1, -- 隱
  0xe7a499, -- 礙
  0xe8b5ab, -- 赫
  0xe692a5, -- 撥
  0xe5bfa0, -- 忠
  0xe88285, -- 肅
  0xe7bcb8, -- 缸
  0xe789bd, -- 牽
  0xe690b6, -- 搶
  0xe58d9a, -- 博
  0xe5b7a7, -- 巧
  0xe6aebc, -- 殼
  0xe58584, -- 兄
  0xe69d9c, -- 杜
  0xe8a88a, -- 訊
  0xe8aaa0, -- 誠
  0xe7a2a7, -- 碧
  0xe7a5a5, -- 祥
  0xe69faf, -- 柯
  0xe9a081, -- 頁
  0xe5b7a1, -- 巡
  0xe79fa9, -- 矩
  0xe682b2, -- 悲
  0xe7818c, -- 灌
  0xe9bda1, -- 齡
  0xe580ab, -- 倫
  0xe7a5a8, -- 票
  0xe5b08b, -- 尋
  0xe6a182, -- 桂
  0xe98baa, -- 鋪
  0xe88196, -- 聖
  0xe68190, -- 恐
  0xe681b0, -- 恰
  0xe984ad, -- 鄭
  0xe8b6a3, -- 趣
  0xe68aac, -- 抬
  0xe88d92, -- 荒
  0xe9a8b0, -- 騰
  0xe8b2bc, -- 貼
  0xe69f94, -- 柔
  0xe6bbb4, -- 滴
  0xe78c9b, -- 猛
  0xe9978a, -- 闊
  0xe8bc9b, -- 輛
  0xe5a6bb, -- 妻
  0xe5a1ab, -- 填
  0xe692a4, -- 撤
  0xe584b2, -- 儲
  0xe7b0bd, -- 簽
  0xe9aca7, -- 鬧
  0xe693be, -- 擾
  0xe7b4ab, -- 紫
  0xe7a082, -- 砂
  0xe9819e, -- 遞
  0xe688b2, -- 戲
  0xe5908a, -- 吊
  0xe999b6, -- 陶
  0xe4bc90, -- 伐
  0xe9a4b5, -- 餵
  0xe79982, -- 療
  0xe793b6, -- 瓶
  0xe5a986, -- 婆
  0xe692ab, -- 撫
  0xe88782, -- 臂
  0xe691b8, -- 摸
  0xe5bf8d, -- 忍
  0xe89da6, -- 蝦
  0xe8a09f, -- 蠟
  0xe984b0, -- 鄰
  0xe883b8, -- 胸
  0xe99e8f, -- 鞏
  0xe693a0, -- 擠
  0xe581b6, -- 偶
  0xe6a384, -- 棄
  0xe6a7bd, -- 槽
  0xe58b81, -- 勁
  0xe4b9b3, -- 乳
  0xe984a7, -- 鄧
  0xe59089, -- 吉
  0xe4bb81, -- 仁
  0xe7889b, -- 爛
  0xe7a39a, -- 磚
  0xe7a79f, -- 租
  0xe7838f, -- 烏
  0xe889a6, -- 艦
  0xe4bcb4, -- 伴
  0xe7939c, -- 瓜
  0xe6b7ba, -- 淺
  0xe4b899, -- 丙
  0xe69aab, -- 暫
  0xe787a5, -- 燥
  0xe6a9a1, -- 橡
  0xe69fb3, -- 柳
  0xe8bfb7, -- 迷
  0xe69a96, -- 暖
  0xe7898c, -- 牌
  0xe7a7a7, -- 秧
  0xe886bd, -- 膽
  0xe8a9b3, -- 詳
  0xe7b0a7, -- 簧
  0xe8b88f, -- 踏
  0xe793b7, -- 瓷
  0xe8ad9c, -- 譜
  0xe59186, -- 呆
  0xe8b393, -- 賓
  0xe7b38a, -- 糊
  0xe6b49b, -- 洛
  0xe8bc9d, -- 輝
  0xe686a4, -- 憤
  0xe7abb6, -- 競
  0xe99a99, -- 隙
  0xe68092, -- 怒
  0xe7b298, -- 粘
  0xe4b983, -- 乃
  0xe7b792, -- 緒
  0xe882a9, -- 肩
  0xe7b18d, -- 籍
  0xe6958f, -- 敏
  0xe5a197, -- 塗
  0xe78699, -- 熙
  0xe79a86, -- 皆
  0xe581b5, -- 偵
  0xe687b8, -- 懸
  0xe68e98, -- 掘
  0xe4baab, -- 享
  0xe7b3be, -- 糾
  0xe98692, -- 醒
  0xe78b82, -- 狂
  0xe98e96, -- 鎖
  0xe6b780, -- 淀
  0xe681a8, -- 恨
  0xe789b2, -- 牲
  0xe99cb8, -- 霸
  0xe788ac, -- 爬
  0xe8b39e, -- 賞
  0xe98086, -- 逆
  0xe78ea9, -- 玩
  0xe999b5, -- 陵
  0xe7a59d, -- 祝
  0xe7a792, -- 秒
  0xe6b599, -- 浙
  0xe8b28c, -- 貌
  0xe5bdb9, -- 役
  0xe5bdbc, -- 彼
  0xe68289, -- 悉
  0xe9b4a8, -- 鴨
  0xe8b6a8, -- 趨
  0xe9b3b3, -- 鳳
  0xe699a8, -- 晨
  0xe7959c, -- 畜
  0xe8bca9, -- 輩
  0xe7a7a9, -- 秩
  0xe58db5, -- 卵
  0xe7bdb2, -- 署
  0xe6a2af, -- 梯
  0xe7828e, -- 炎
  0xe78198, -- 灘
  0xe6a38b, -- 棋
  0xe9a985, -- 驅
  0xe7afa9, -- 篩
  0xe5b3bd, -- 峽
  0xe58692, -- 冒
  0xe595a5, -- 啥
  0xe5a3bd, -- 壽
  0xe8adaf, -- 譯
  0xe6b5b8, -- 浸
  0xe6b389, -- 泉
  0xe5b8bd, -- 帽
  0xe981b2, -- 遲
  0xe79fbd, -- 矽
  0xe79686, -- 疆
  0xe8b2b8, -- 貸
  0xe6bc8f, -- 漏
  0xe7a8bf, -- 稿
  0xe586a0, -- 冠
  0xe5aba9, -- 嫩
  0xe88485, -- 脅
  0xe88aaf, -- 芯
  0xe789a2, -- 牢
  0xe58f9b, -- 叛
  0xe89d95, -- 蝕
  0xe5a5a7, -- 奧
  0xe9b3b4, -- 鳴
  0xe5b6ba, -- 嶺
  0xe7be8a, -- 羊
  0xe68691, -- 憑
  0xe4b8b2, -- 串
  0xe5a198, -- 塘
  0xe7b9aa, -- 繪
  0xe985b5, -- 酵
  0xe89e8d, -- 融
  0xe79b86, -- 盆
  0xe98cab, -- 錫
  0xe5bb9f, -- 廟
  0xe7b18c, -- 籌
  0xe5878d, -- 凍
  0xe8bc94, -- 輔
  0xe6949d, -- 攝
  0xe8a5b2, -- 襲
  0xe7ad8b, -- 筋
  0xe68b92, -- 拒
  0xe5839a, -- 僚
  0xe697b1, -- 旱
  0xe98980, -- 鉀
  0xe9b3a5, -- 鳥
  0xe6bc86, -- 漆
  0xe6b288, -- 沈
  0xe79c89, -- 眉
  0xe7968f, -- 疏
  0xe6b7bb, -- 添
  0xe6a392, -- 棒
  0xe7a997, -- 穗
  0xe7a19d, -- 硝
  0xe99f93, -- 韓
  0xe980bc, -- 逼
  0xe689ad, -- 扭
  0xe58391, -- 僑
  0xe6b6bc, -- 涼
  0xe68cba, -- 挺
  0xe7a297, -- 碗
  0xe6a0bd, -- 栽
  0xe78292, -- 炒
  0xe69daf, -- 杯
  0xe682a3, -- 患
  0xe9a4be, -- 餾
  0xe58bb8, -- 勸
  0xe8b1aa, -- 豪
  0xe981bc, -- 遼
  0xe58b83, -- 勃
  0xe9b4bb, -- 鴻
  0xe697a6, -- 旦
  0xe5908f, -- 吏
  0xe68b9c, -- 拜
  0xe78b97, -- 狗
  0xe59f8b, -- 埋
  0xe8bca5, -- 輥
  0xe68ea9, -- 掩
  0xe9a3b2, -- 飲
  0xe690ac, -- 搬
  0xe7bdb5, -- 罵
  0xe8bead, -- 辭
  0xe58bbe, -- 勾
  0xe689a3, -- 扣
  0xe4bcb0, -- 估
  0xe894a3, -- 蔣
  0xe7b5a8, -- 絨
  0xe99ca7, -- 霧
  0xe4b888, -- 丈
  0xe69cb5, -- 朵
  0xe5a786, -- 姆
  0xe693ac, -- 擬
  0xe5ae87, -- 宇
  0xe8bcaf, -- 輯
  0xe9999d, -- 陝
  0xe99b95, -- 雕
  0xe5849f, -- 償
  0xe89384, -- 蓄
  0xe5b487, -- 崇
  0xe589aa, -- 剪
  0xe580a1, -- 倡
  0xe5bbb3, -- 廳
  0xe592ac, -- 咬
  0xe9a79b, -- 駛
  0xe896af, -- 薯
  0xe588b7, -- 刷
  0xe696a5, -- 斥
  0xe795aa, -- 番
  0xe8b3a6, -- 賦
  0xe5a589, -- 奉
  0xe4bd9b, -- 佛
  0xe6be86, -- 澆
  0xe6bcab, -- 漫
  0xe69bbc, -- 曼
  0xe68987, -- 扇
  0xe988a3, -- 鈣
  0xe6a183, -- 桃
  0xe689b6, -- 扶
  0xe4bb94, -- 仔
  0xe8bf94, -- 返
  0xe4bf97, -- 俗
  0xe899a7, -- 虧
  0xe88594, -- 腔
  0xe99e8b, -- 鞋
  0xe6a3b1, -- 棱
  0xe8a686, -- 覆
  0xe6a186, -- 框
  0xe68284, -- 悄
  0xe58f94, -- 叔
  0xe6929e, -- 撞
  0xe9a899, -- 騙
  0xe58b98, -- 勘
  0xe697ba, -- 旺
  0xe6b2b8, -- 沸
  0xe5ada4, -- 孤
  0xe59090, -- 吐
  0xe5ad9f, -- 孟
  0xe6b8a0, -- 渠
  0xe5b188, -- 屈
  0xe796be, -- 疾
  0xe5a699, -- 妙
  0xe6839c, -- 惜
  0xe4bbb0, -- 仰
  0xe78ba0, -- 狠
  0xe884b9, -- 脹
  0xe8aba7, -- 諧
  0xe68b8b, -- 拋
  0xe9bbb4, -- 黴
  0xe6a191, -- 桑
  0xe5b497, -- 崗
  0xe5989b, -- 嘛
  0xe8a1b0, -- 衰
  0xe79b9c, -- 盜
  0xe6bbb2, -- 滲
  0xe8879f, -- 臟
  0xe8b3b4, -- 賴
  0xe6b9a7, -- 湧
  0xe7949c, -- 甜
  0xe69bb9, -- 曹
  0xe996b1, -- 閱
  0xe8828c, -- 肌
  0xe593a9, -- 哩
  0xe58eb2, -- 厲
  0xe783b4, -- 烴
  0xe7b7af, -- 緯
  0xe6af85, -- 毅
  0xe698a8, -- 昨
  0xe581bd, -- 偽
  0xe79787, -- 症
  0xe785ae, -- 煮
  0xe59886, -- 嘆
  0xe98798, -- 釘
  0xe690ad, -- 搭
  0xe88e96, -- 莖
  0xe7b1a0, -- 籠
  0xe985b7, -- 酷
  0xe581b7, -- 偷
  0xe5bc93, -- 弓
  0xe98c90, -- 錐
  0xe68186, -- 恆
  0xe58291, -- 傑
  0xe59d91, -- 坑
  0xe9bcbb, -- 鼻
  0xe7bfbc, -- 翼
  0xe7b6b8, -- 綸
  0xe69598, -- 敘
  0xe78d84, -- 獄
  0xe980ae, -- 逮
  0xe7bd90, -- 罐
  0xe7b5a1, -- 絡
  0xe6a39a, -- 棚
  0xe68a91, -- 抑
  0xe886a8, -- 膨
  0xe894ac, -- 蔬
  0xe5afba, -- 寺
  0xe9a99f, -- 驟
  0xe7a986, -- 穆
  0xe586b6, -- 冶
  0xe69eaf, -- 枯
  0xe5868a, -- 冊
  0xe5b18d, -- 屍
  0xe587b8, -- 凸
  0xe7b4b3, -- 紳
  0xe59daf, -- 坯
  0xe78aa7, -- 犧
  0xe784b0, -- 焰
  0xe8bd9f, -- 轟
  0xe6aca3, -- 欣
  0xe69989, -- 晉
  0xe798a6, -- 瘦
  0xe7a6a6, -- 禦
  0xe98ca0, -- 錠
  0xe98ca6, -- 錦
  0xe596aa, -- 喪
  0xe697ac, -- 旬
  0xe98d9b, -- 鍛
  0xe5a39f, -- 壟
  0xe6909c, -- 搜
  0xe692b2, -- 撲
  0xe98280, -- 邀
  0xe4baad, -- 亭
  0xe985af, -- 酯
  0xe98281, -- 邁
  0xe88892, -- 舒
  0xe88486, -- 脆
  0xe985b6, -- 酶
  0xe99692, -- 閒
  0xe68682, -- 憂
  0xe9859a, -- 酚
  0xe9a091, -- 頑
  0xe7bebd, -- 羽
  0xe6bcb2, -- 漲
  0xe58db8, -- 卸
  0xe4bb97, -- 仗
  0xe999aa, -- 陪
  0xe997a2, -- 闢
  0xe687b2, -- 懲
  0xe69dad, -- 杭
  0xe5a79a, -- 姚
  0xe8829a, -- 肚
  0xe68d89, -- 捉
  0xe9a384, -- 飄
  0xe6bc82, -- 漂
  0xe69886, -- 昆
  0xe6acba, -- 欺
  0xe590be, -- 吾
  0xe9838e, -- 郎
  0xe783b7, -- 烷
  0xe6b181, -- 汁
  0xe591b5, -- 呵
  0xe9a3be, -- 飾
  0xe895ad, -- 蕭
  0xe99b85, -- 雅
  0xe983b5, -- 郵
  0xe981b7, -- 遷
  0xe78795, -- 燕
  0xe69292, -- 撒
  0xe5a7bb, -- 姻
  0xe8b5b4, -- 赴
  0xe5aeb4, -- 宴
  0xe785a9, -- 煩
  0xe582b5, -- 債
  0xe5b8b3, -- 帳
  0xe69691, -- 斑
  0xe988b4, -- 鈴
  0xe697a8, -- 旨
  0xe98687, -- 醇
  0xe891a3, -- 董
  0xe9a485, -- 餅
  0xe99b9b, -- 雛
  0xe5a7bf, -- 姿
  0xe68b8c, -- 拌
  0xe58285, -- 傅
  0xe885b9, -- 腹
  0xe5a6a5, -- 妥
  0xe68f89, -- 揉
  0xe8b3a2, -- 賢
  0xe68b86, -- 拆
  0xe6adaa, -- 歪
  0xe891a1, -- 葡
  0xe883ba, -- 胺
  0xe4b89f, -- 丟
  0xe6b5a9, -- 浩
  0xe5bebd, -- 徽
  0xe69882, -- 昂
  0xe5a28a, -- 墊
  0xe6938b, -- 擋
  0xe8a6bd, -- 覽
  0xe8b2aa, -- 貪
  0xe685b0, -- 慰
  0xe7b9b3, -- 繳
  0xe6b1aa, -- 汪
  0xe6858c, -- 慌
  0xe9a6ae, -- 馮
  0xe8abbe, -- 諾
  0xe5a79c, -- 姜
  0xe8aabc, -- 誼
  0xe58587, -- 兇
  0xe58aa3, -- 劣
  0xe8aaa3, -- 誣
  0xe88080, -- 耀
  0xe6988f, -- 昏
  0xe8baba, -- 躺
  0xe79b88, -- 盈
  0xe9a88e, -- 騎
  0xe596ac, -- 喬
  0xe6baaa, -- 溪
  0xe58fa2, -- 叢
  0xe79ba7, -- 盧
  0xe68ab9, -- 抹
  0xe682b6, -- 悶
  0xe8abae, -- 諮
  0xe588ae, -- 刮
  0xe9a795, -- 駕
  0xe7ba9c, -- 纜
  0xe6829f, -- 悟
  0xe69198, -- 摘
  0xe989ba, -- 鉺
  0xe693b2, -- 擲
  0xe9a097, -- 頗
  0xe5b9bb, -- 幻
  0xe69f84, -- 柄
  0xe683a0, -- 惠
  0xe68598, -- 慘
  0xe4bdb3, -- 佳
  0xe4bb87, -- 仇
  0xe88798, -- 臘
  0xe7aaa9, -- 窩
  0xe6bb8c, -- 滌
  0xe58a8d, -- 劍
  0xe79ea7, -- 瞧
  0xe5a0a1, -- 堡
  0xe6bd91, -- 潑
  0xe894a5, -- 蔥
  0xe7bda9, -- 罩
  0xe99c8d, -- 霍
  0xe69288, -- 撈
  0xe8838e, -- 胎
  0xe892bc, -- 蒼
  0xe6bfb1, -- 濱
  0xe58086, -- 倆
  0xe68d85, -- 捅
  0xe6b998, -- 湘
  0xe7a08d, -- 砍
  0xe99c9e, -- 霞
  0xe982b5, -- 邵
  0xe89084, -- 萄
  0xe7988b, -- 瘋
  0xe6b7ae, -- 淮
  0xe98182, -- 遂
  0xe7868a, -- 熊
  0xe7b39e, -- 糞
  0xe78398, -- 烘
  0xe5aebf, -- 宿
  0xe6aa94, -- 檔
  0xe68888, -- 戈
  0xe9a781, -- 駁
  0xe5ab82, -- 嫂
  0xe8a395, -- 裕
  0xe5be99, -- 徙
  0xe7aead, -- 箭
  0xe68d90, -- 捐
  0xe885b8, -- 腸
  0xe69290, -- 撐
  0xe69bac, -- 曬
  0xe8bea8, -- 辨
  0xe6aebf, -- 殿
  0xe893ae, -- 蓮
  0xe694a4, -- 攤
  0xe694aa, -- 攪
  0xe986ac, -- 醬
  0xe5b18f, -- 屏
  0xe796ab, -- 疫
  0xe59380, -- 哀
  0xe894a1, -- 蔡
  0xe5a0b5, -- 堵
  0xe6b2ab, -- 沫
  0xe79aba, -- 皺
  0xe69aa2, -- 暢
  0xe7968a, -- 疊
  0xe996a3, -- 閣
  0xe8908a, -- 萊
  0xe695b2, -- 敲
  0xe8bd84, -- 轄
  0xe989a4, -- 鉤
  0xe79795, -- 痕
  0xe5a3a9, -- 壩
  0xe5b7b7, -- 巷
  0xe9a493, -- 餓
  0xe7a68d, -- 禍
  0xe4b898, -- 丘
  0xe78e84, -- 玄
  0xe6ba9c, -- 溜
  0xe69bb0, -- 曰
  0xe9828f, -- 邏
  0xe5bdad, -- 彭
  0xe59897, -- 嘗
  0xe58dbf, -- 卿
  0xe5a6a8, -- 妨
  0xe88987, -- 艇
  0xe5909e, -- 吞
  0xe99f8b, -- 韋
  0xe680a8, -- 怨
  0xe79fae, -- 矮
  0xe6ad87] -- 歇

/-- wordlists.go:14362-16411 `ChineseTraditionalWordlist`. -/
def ChineseTraditionalWordlist : List GoString := unpackWords ChineseTraditionalWordlistPacked

end Btc
